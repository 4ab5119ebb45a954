import Verif.LoanFloat
import Verif.Spec.Business

/-! # What rounding may do to a loan -/
namespace Auxi.LoanFloat.Spec
open Auxi Auxi.Business Auxi.Business.Spec

/-- The effect of running one activity in periods `0 .. n-1` on the machine: final state, transactions in order. -/
def runForF (rnd : ℚ → ℚ) (clk : Time.Clock) (a : Activity) : Nat → Activity × List Tx
  | 0 => (a, [])
  | n + 1 =>
    let r := runF rnd (clockAt clk n) (runForF rnd clk a n).1
    (r.1, (runForF rnd clk a n).2 ++ r.2)

/-- The same transaction, perhaps of another amount. -/
def SameButAmount (s t : Tx) : Prop := s = { t with amount := s.amount }

/-- A power function of relative error `v` (for numbers from 1, whose powers do not underflow). -/
def GoodPow (pw : ℚ → ℤ → ℚ) (v : ℚ) : Prop := ∀ (x : ℚ) (d : ℕ), 1 ≤ x → |pw x d - x ^ d| ≤ v * x ^ d

/-- How far the account of a loan that never owes more than `B`, growing by the factor `g` a month, may be off after `n` instalments. -/
def drift (u η g B : ℚ) (n : ℕ) : ℚ := n * (9 * u * B + 3 * η) * (g * (1 + 6 * u)) ^ n

/-- The relative error of the monthly instalment. -/
def tol (u v g : ℚ) (d : ℕ) : ℚ := 16 * u + (80 * d * u + 16 * v) / (g ^ d - 1)

end Auxi.LoanFloat.Spec
