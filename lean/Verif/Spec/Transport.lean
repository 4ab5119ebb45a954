import Verif.Transport

/-!
# Specification vocabulary for transport phenomena
-/
namespace Auxi.Transport.Spec

/-- An angle a flat surface can have. -/
def Angle (theta : ℝ) : Prop := -90 ≤ theta ∧ theta ≤ 90

/-- A fluid whose property functions return positive numbers at all temperatures. -/
structure Regular (fl : Fluid) : Prop where
  beta : ∀ T, ∃ x, fl.beta T = .ok x ∧ 0 < x
  nu : ∀ T, ∃ x, fl.nu T = .ok x ∧ 0 < x
  alpha : ∀ T, ∃ x, fl.alpha T = .ok x ∧ 0 < x
  k : ∀ T, ∃ x, fl.k T = .ok x ∧ 0 < x

/-- A fluid with constant properties. -/
structure Constant (fl : Fluid) (beta nu alpha k : ℝ) : Prop where
  beta : ∀ T, fl.beta T = .ok beta
  nu : ∀ T, fl.nu T = .ok nu
  alpha : ∀ T, fl.alpha T = .ok alpha
  k : ∀ T, fl.k T = .ok k

/-- The local Nusselt number according to each correlation of the textbook. -/
noncomputable def Textbook (q : Equation) (ra pr : ℝ) : ℝ := match q with
  | .eq8_26 => 0.678 * ra ^ (1 / 4 : ℝ) * (pr / (0.952 + pr)) ^ (1 / 4 : ℝ)
  | .eq8_27 | .eq8_27_g => 0.68 + 0.67 * ra ^ (1 / 4 : ℝ) / (1 + (0.492 / pr) ^ (9 / 16 : ℝ)) ^ (4 / 9 : ℝ)
  | .eq8_38 => 0.58 * ra ^ (1 / 5 : ℝ)
  | .eq9_22 => 0.59 * ra ^ (1 / 4 : ℝ)
  | .eq9_23 => 0.1 * ra ^ (1 / 3 : ℝ)

/-- The equation Colebrook and White give for the friction factor `f` of a duct with relative roughness `r`. -/
def ColebrookWhite (re r f : ℝ) : Prop := 0 < f ∧ 1 / Real.sqrt f = -2 * Real.logb 10 (r / 3.7 + 2.51 / (re * Real.sqrt f))

end Auxi.Transport.Spec
