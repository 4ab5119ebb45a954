import Verif.ReportsFloat
import Verif.Spec.Reports

/-!
# Specification vocabulary for C118: reports in floating point
-/
namespace Auxi.ReportsFloat.Spec
open Auxi Auxi.Reports

/-- The relative error that `K` roundings can make together: `(1 + u) ** K - 1`. -/
def slack (u : ℚ) (K : ℕ) : ℚ := (1 + u) ^ K - 1

/-- `t` is `x` with its amount as the machine has it, off by at most `K` roundings. -/
def Recorded (rnd : ℚ → ℚ) (u : ℚ) (K : ℕ) (t x : RTx) : Prop :=
  t = { x with amount := t.amount } ∧ rnd t.amount = t.amount ∧ |t.amount - x.amount| ≤ slack u K * |x.amount|

/-- The sizes of all amounts together. -/
def totalAbs (txs : List RTx) : ℚ := (txs.map (fun t => |t.amount|)).sum

/-- The sizes of all amounts that were put to an account. -/
def turnover (p : Str) (txs : List RTx) : ℚ :=
  (txs.map (fun t => (if t.cr = some p then |t.amount| else 0) + (if t.dt = some p then |t.amount| else 0))).sum

end Auxi.ReportsFloat.Spec
