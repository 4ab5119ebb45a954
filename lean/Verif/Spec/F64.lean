import Verif.Psd
import Verif.Slurry
import Mathlib.Data.EReal.Inv

/-! # Specification: numbers that are not finite -/
namespace Auxi.Psd.Spec

/-- The number as an extended real number; `none` for `nan`. -/
noncomputable def value : F64 → Option EReal
  | .fin q => some ((q : ℝ) : EReal)
  | .pinf => some ⊤
  | .ninf => some ⊥
  | .nan => none

/-- A finite number. -/
def IsFin (x : F64) : Prop := ∃ q, x = .fin q

/-- Some number of the package is not finite. -/
def Spoilt (p : Package) : Prop := ∃ x ∈ p.masses, ¬ IsFin x

end Auxi.Psd.Spec

namespace Auxi.Slurry.Spec
open Psd (F64)

/-- Some mass of the slurry package is not finite. -/
def Spoilt (p : Package) : Prop := (∃ x ∈ p.masses, ¬ Psd.Spec.IsFin x) ∨ ¬ Psd.Spec.IsFin p.water

end Auxi.Slurry.Spec
