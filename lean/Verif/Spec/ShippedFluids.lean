import Verif.ShippedFluids

/-! # Specification vocabulary for C109–C111: the gases and the water shipped with the code -/
namespace Auxi.Phys.Spec

/-- The call with a temperature in kelvin as the only keyword. -/
def temp (T : ℝ) : State := [("T".toList, .num T)]

/-- The shipped gases, each with the temperatures (kelvin) that its data cover. -/
def gasRanges : List (Str × ℚ × ℚ) :=
  [("Air".toList, 100, 1500), ("Ar".toList, 150, 700), ("NH3".toList, 240, 473), ("CO2".toList, 220, 600), ("CO".toList, 250, 1000), ("N2".toList, 100, 1600),
   ("O2".toList, 100, 1000), ("H2O".toList, 373.15, 1073.15)]

/-- `m` is the material `materials[f]` of the module `gases`. -/
def IsGas (f : Str) (m : Mat) : Prop := ∃ d, (f, d) ∈ gasData ∧ m = gasMat f d

/-- `f` is a shipped gas, and its data cover the temperature `T`. -/
def Covered (f : Str) (T : ℝ) : Prop := ∃ lo hi : ℚ, (f, lo, hi) ∈ gasRanges ∧ (lo : ℝ) ≤ T ∧ T ≤ hi

/-- The temperatures that the data of water cover. -/
def WaterCovered (T : ℝ) : Prop := 273.16 ≤ T ∧ T ≤ 620

/-- At the temperature `T` the property is `v`. -/
def Is (p : Option (State → Res ℝ)) (T v : ℝ) : Prop := prop p (temp T) = .ok v

end Auxi.Phys.Spec
