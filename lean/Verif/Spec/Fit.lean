import Verif.Fit
import Mathlib.Algebra.Polynomial.Roots

/-! # Specification vocabulary for fitted models -/
namespace Auxi.Fit.Spec
open Polynomial

/-- The sum of the squares of the distances between a function and the data. -/
noncomputable def squares (f : ℝ → ℝ) (rows : List (ℝ × ℝ)) : ℝ := (rows.map (fun r => (f r.1 - r.2) ^ 2)).sum

/-- The value at `T` of the polynomial with these coefficients, the highest power first: the sum of `c * T ^ k`. -/
noncomputable def value : List ℝ → ℝ → ℝ
  | [], _ => 0
  | c :: cs, T => c * T ^ cs.length + value cs T

/-- What is assumed of the fitting procedure: it gives `degree + 1` coefficients, and no polynomial of that degree or
less is nearer to the data. -/
def LeastSquares (fit : List ℝ → List ℝ → Nat → List ℝ) : Prop :=
  ∀ (xs ys : List ℝ) (n : Nat), xs ≠ [] → xs.length = ys.length →
    (fit xs ys n).length = n + 1 ∧
    ∀ p : ℝ[X], p.natDegree ≤ n → squares (value (fit xs ys n)) (xs.zip ys) ≤ squares (fun T => p.eval T) (xs.zip ys)

/-- The rows of a data set for one property: temperature and value. -/
def rows (d : DataSet) (symbol : Str) : Option (List (ℝ × ℝ)) :=
  match d.data.lookup "T".toList, d.data.lookup symbol with
  | some xs, some ys => some (xs.zip ys)
  | _, _ => none

/-- As many different temperatures as a number. -/
def Distinct (k : Nat) (rows : List (ℝ × ℝ)) : Prop := k ≤ (rows.map (·.1)).toFinset.card

end Auxi.Fit.Spec
