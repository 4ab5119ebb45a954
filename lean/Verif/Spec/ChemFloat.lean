import Verif.ChemFloat
import Verif.Spec.Chem

/-!
# Specification vocabulary for C116: masses as machine numbers
-/
namespace Auxi.ChemFloat.Spec
open Auxi Auxi.Chem

/-- A number the machine has: a `float`, or the integer 0 of an empty package. -/
def Machine (rnd : ℚ → ℚ) (x : Num) : Prop := rnd x.val = x.val ∧ (x.isFloat = true ∨ x.val = 0)

/-- A package as programs have them: masses are machine numbers and none is negative. -/
def Sound (rnd : ℚ → ℚ) (p : Package) : Prop := ∀ x ∈ p.masses, Machine rnd x ∧ 0 ≤ x.val

/-- The argument of `extract` is a machine number and not negative. -/
def ArgOk (rnd : ℚ → ℚ) : Arg → Prop
  | .num x => rnd x.val = x.val ∧ 0 ≤ x.val
  | .tup _ x => rnd x.val = x.val ∧ 0 ≤ x.val
  | _ => True

/-- The mass at a position of the list, 0 outside. -/
def at_ (p : Package) (i : ℕ) : ℚ := (p.masses.map Num.val).getD i 0

/-- The exact sum of the masses. -/
def total (p : Package) : ℚ := (p.masses.map Num.val).sum

/-- The usual bound on the relative error of `n` operations: `n u / (1 - n u)`. -/
def γ (u : ℚ) (n : ℕ) : ℚ := n * u / (1 - n * u)

/-- A list of extractions from one package; the caller catches exceptions.  What was extracted, and what is left. -/
def extractAll (rnd : ℚ → ℚ) (p : Package) : List Arg → List Package × Package
  | [] => ([], p)
  | a :: as => match ChemFloat.extract rnd p a with
    | (.error _, p') => extractAll rnd p' as
    | (.ok r, p') => match extractAll rnd p' as with
      | (rs, q) => (r :: rs, q)

end Auxi.ChemFloat.Spec
