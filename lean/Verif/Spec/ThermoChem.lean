import Verif.ThermoChem
import Mathlib.MeasureTheory.Integral.IntervalIntegral.Basic

/-! # Specification vocabulary for C70–C79: phases whose data cover the temperature range without gaps -/
namespace Auxi.ThermoChem.Spec

/-- The records, in the order listed, cover the range from `a` upwards without gaps: each begins where the one before ends, and each is filed under
its upper limit. -/
def Contiguous : ℝ → List (ℝ × CpRecord) → Prop
  | _, [] => True
  | a, r :: l => r.1 = r.2.Tmax ∧ r.2.Tmin = a ∧ a < r.2.Tmax ∧ Contiguous r.2.Tmax l

/-- The data of the phase, in some order `l`, cover the range from `T0` without gaps. -/
structure Covers (p : Phase) (T0 : ℝ) (l : List (ℝ × CpRecord)) : Prop where
  pos : 0 < T0
  ne : l ≠ []
  perm : l.Perm p.records
  contiguous : Contiguous T0 l

/-- The upper end of the data. -/
noncomputable def top (T0 : ℝ) (l : List (ℝ × CpRecord)) : ℝ := (l.getLast?.map (fun r => r.2.Tmax)).getD T0

/-- The magnetic parameters make sense: a positive critical temperature, and a fraction in (0, 1]. -/
structure MagOK (m : Mag) : Prop where
  Tc : 0 < m.Tc
  p : 0 < m.p
  p1 : m.p ≤ 1

/-- The magnetic parameters of the phase, if there are any, make sense. -/
def PhaseMagOK (p : Phase) : Prop := ∀ m, p.mag = some m → MagOK m

/-- `cp` is the heat capacity function of the phase: `Cp` returns its values. -/
def IsCp (p : Phase) (cp : ℝ → ℝ) : Prop := ∀ T, 0 < T → p.Cp T = .ok (cp T)

end Auxi.ThermoChem.Spec
