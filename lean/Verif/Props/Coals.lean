import Verif.Coals
import Mathlib.Analysis.SpecialFunctions.ExpDeriv
import Mathlib.Analysis.Calculus.Deriv.Inv
import Mathlib.Analysis.Calculus.Deriv.MeanValue
import Mathlib.MeasureTheory.Integral.IntervalIntegral.FundThmCalculus

/-!
# Property C83: the thermal models of dry ash-free coal
-/
namespace Auxi.Coals.Props
open Auxi Auxi.Coals

/-- An ultimate analysis: no negative fractions, not all zero. -/
def Proper (y : Assay) : Prop := 0 ≤ y.C ∧ 0 ≤ y.H ∧ 0 ≤ y.O ∧ 0 ≤ y.N ∧ 0 ≤ y.S ∧ 0 < y.C + y.H + y.O + y.N + y.S

theorem mm_C : mm "C" = 12.0107 := by
  have h : Stoich.molarMass "C".toList = .ok (120107/10000) := by decide +kernel
  unfold mm; rw [h]; norm_num
theorem mm_H : mm "H" = 1.00794 := by
  have h : Stoich.molarMass "H".toList = .ok (50397/50000) := by decide +kernel
  unfold mm; rw [h]; norm_num
theorem mm_O : mm "O" = 15.9994 := by
  have h : Stoich.molarMass "O".toList = .ok (79997/5000) := by decide +kernel
  unfold mm; rw [h]; norm_num
theorem mm_N : mm "N" = 14.00674 := by
  have h : Stoich.molarMass "N".toList = .ok (700337/50000) := by decide +kernel
  unfold mm; rw [h]; norm_num
theorem mm_S : mm "S" = 32.066 := by
  have h : Stoich.molarMass "S".toList = .ok (16033/500) := by decide +kernel
  unfold mm; rw [h]; norm_num

theorem moles_pos {y : Assay} (h : Proper y) : 0 < moles y := by
  obtain ⟨h1, h2, h3, h4, h5, h6⟩ := h
  unfold moles
  rw [mm_C, mm_H, mm_O, mm_N, mm_S]
  have e1 := div_nonneg h1 (show (0:ℝ) ≤ 12.0107 by norm_num)
  have e2 := div_nonneg h2 (show (0:ℝ) ≤ 1.00794 by norm_num)
  have e3 := div_nonneg h3 (show (0:ℝ) ≤ 15.9994 by norm_num)
  have e4 := div_nonneg h4 (show (0:ℝ) ≤ 14.00674 by norm_num)
  have e5 := div_nonneg h5 (show (0:ℝ) ≤ 32.066 by norm_num)
  have k : (y.C + y.H + y.O + y.N + y.S) / 100 ≤ y.C / 12.0107 + y.H / 1.00794 + y.O / 15.9994 + y.N / 14.00674 + y.S / 32.066 := by
    rw [add_div, add_div, add_div, add_div]
    gcongr <;> norm_num
  have : 0 < (y.C + y.H + y.O + y.N + y.S) / 100 := by positivity
  linarith

theorem exp_sub_ne {z : ℝ} (hz : z ≠ 0) : Real.exp z - 1 ≠ 0 := by
  rw [sub_ne_zero]; intro h; exact hz (Real.exp_eq_one_iff z |>.1 h)

/-- The enthalpy of one vibration mode: its derivative is the heat capacity of that mode. -/
theorem g0_deriv {c T : ℝ} (hc : c ≠ 0) (hT : T ≠ 0) : HasDerivAt (fun x => c * g0 (c / x)) (g1 (c / T)) T := by
  have hz : c / T ≠ 0 := div_ne_zero hc hT
  have hE := exp_sub_ne hz
  have h1 : HasDerivAt (fun x => c / x) (-(c / T ^ 2)) T := by
    have := (hasDerivAt_inv hT).const_mul c
    refine this.congr_deriv ?_
    field_simp
  have h2 := ((h1.exp.sub_const 1).inv hE).const_mul c
  have h3 : (fun x => c * g0 (c / x)) = fun x => c * (Real.exp (c / x) - 1)⁻¹ := by
    funext x; unfold g0; rw [one_div]
  rw [h3]
  refine h2.congr_deriv ?_
  unfold g1
  field_simp

theorem g1_pos {z : ℝ} (hz : z ≠ 0) : 0 < g1 z := by
  unfold g1
  have := div_ne_zero (exp_sub_ne hz) hz
  positivity

/-- **C83.** For every ultimate analysis and temperature above zero both models return a value; the enthalpy is differentiable in temperature and
its derivative is the heat capacity, which is positive. -/
theorem C83_derivative (y : Assay) (hy : Proper y) : ∃ h c : ℝ → ℝ, (∀ T, 0 < T → dafH T y = .ok (h T) ∧ dafCp T y = .ok (c T)) ∧
    ∀ T, 0 < T → HasDerivAt h (c T) T ∧ 0 < c T := by
  have hm := moles_pos hy
  have hR : 0 < R := by unfold R; norm_num
  refine ⟨fun T => R / (1 / moles y / 1000) * (380 * g0 (380 / T) + 3600 * g0 (1800 / T)),
    fun T => R / (1 / moles y / 1000) * (g1 (380 / T) + 2 * g1 (1800 / T)), ?_, ?_⟩
  · intro T hT
    unfold dafH dafCp calcA
    rw [if_neg hm.ne']
    dsimp only
    rw [if_neg hT.ne', if_neg hT.ne']
    exact ⟨rfl, rfl⟩
  · intro T hT
    have k : 0 < R / (1 / moles y / 1000) := by positivity
    refine ⟨?_, ?_⟩
    · have h1 := g0_deriv (c := 380) (by norm_num) hT.ne'
      have h2 := (g0_deriv (c := 1800) (by norm_num) hT.ne').const_mul 2
      have h3 := (h1.add h2).const_mul (R / (1 / moles y / 1000))
      refine HasDerivAt.congr_of_eventuallyEq h3 (Filter.Eventually.of_forall fun x => ?_)
      simp only [Pi.add_apply]
      ring
    · have a := g1_pos (z := 380 / T) (by positivity)
      have b := g1_pos (z := 1800 / T) (by positivity)
      dsimp only
      positivity

theorem g1_continuous {c : ℝ} (hc : c ≠ 0) : ContinuousOn (fun x : ℝ => g1 (c / x)) (Set.Ioi 0) := by
  intro x hx
  have hx' : x ≠ 0 := ne_of_gt hx
  have hz : c / x ≠ 0 := div_ne_zero hc hx'
  unfold g1
  have h1 : ContinuousAt (fun x : ℝ => c / x) x := continuousAt_const.div continuousAt_id hx'
  have h2 : ContinuousAt (fun x : ℝ => Real.exp (c / x)) x := Real.continuous_exp.continuousAt.comp h1
  exact (h2.div (((h2.sub continuousAt_const).div h1 hz).pow 2) (pow_ne_zero _ (div_ne_zero (exp_sub_ne hz) hz))).continuousWithinAt

/-- **C83 (integral).** The enthalpy difference between two temperatures is the integral of the heat capacity; heating always takes heat. -/
theorem C83_integral (y : Assay) (hy : Proper y) (T U : ℝ) (hT : 0 < T) (hTU : T < U) :
    ∃ (c : ℝ → ℝ) (a b : ℝ), (∀ x, 0 < x → dafCp x y = .ok (c x)) ∧ dafH T y = .ok a ∧ dafH U y = .ok b ∧ b - a = ∫ x in T..U, c x ∧ a < b := by
  obtain ⟨h, c, h1, h2⟩ := C83_derivative y hy
  have hm := moles_pos hy
  have hcont : ContinuousOn c (Set.Ioi 0) := by
    have e : Set.EqOn c (fun T => R / (1 / moles y / 1000) * (g1 (380 / T) + 2 * g1 (1800 / T))) (Set.Ioi 0) := by
      intro x hx
      have k := (h1 x hx).2
      unfold dafCp calcA at k
      rw [if_neg hm.ne'] at k
      dsimp only at k
      rw [if_neg (ne_of_gt hx)] at k
      exact (Except.ok.inj k).symm
    refine ContinuousOn.congr ?_ e
    exact continuousOn_const.mul ((g1_continuous (by norm_num)).add (continuousOn_const.mul (g1_continuous (by norm_num))))
  have hsub : Set.uIcc T U ⊆ Set.Ioi 0 := by
    rw [Set.uIcc_of_le hTU.le]; intro x hx; exact lt_of_lt_of_le hT hx.1
  have hint := intervalIntegral.integral_eq_sub_of_hasDerivAt (fun x hx => (h2 x (hsub hx)).1) (hcont.mono hsub).intervalIntegrable
  refine ⟨c, h T, h U, fun x hx => (h1 x hx).2, (h1 T hT).1, (h1 U (hT.trans hTU)).1, hint.symm, ?_⟩
  have : StrictMonoOn h (Set.Ioi 0) := by
    refine strictMonoOn_of_deriv_pos (convex_Ioi 0) (fun x hx => ((h2 x hx).1).continuousAt.continuousWithinAt) ?_
    intro x hx
    rw [interior_Ioi] at hx
    rw [(h2 x hx).1.deriv]; exact (h2 x hx).2
  exact this hT (hT.trans hTU) hTU

/-- **C83 (no validation).** The models accept states their schema forbids: here a negative temperature and a carbon content above one. -/
theorem C81_coal_accepts_forbidden : ∃ v, dafH (-100) ⟨2, 0, 0, 0, 0⟩ = .ok v := by
  unfold dafH calcA
  have h : moles ⟨2, 0, 0, 0, 0⟩ ≠ 0 := (moles_pos ⟨by norm_num, le_rfl, le_rfl, le_rfl, le_rfl, by norm_num⟩).ne'
  rw [if_neg h]
  dsimp only
  rw [if_neg (by norm_num)]
  exact ⟨_, rfl⟩

/-- **C81** (coal): at a temperature of zero, and for an analysis that contains nothing, neither model returns a value. -/
theorem C81_coal_refuses (y : Assay) : (∀ v, dafCp 0 y ≠ .ok v ∧ dafH 0 y ≠ .ok v) ∧
    ∀ T v, dafCp T ⟨0, 0, 0, 0, 0⟩ ≠ .ok v ∧ dafH T ⟨0, 0, 0, 0, 0⟩ ≠ .ok v := by
  have h0 : moles ⟨0, 0, 0, 0, 0⟩ = 0 := by unfold moles; simp
  refine ⟨fun v => ?_, fun T v => ?_⟩
  · unfold dafCp dafH calcA
    by_cases h : moles y = 0
    · rw [if_pos h]; exact ⟨fun e => (by cases e), fun e => (by cases e)⟩
    · rw [if_neg h]
      dsimp only
      rw [if_pos rfl, if_pos rfl]; exact ⟨fun e => (by cases e), fun e => (by cases e)⟩
  · unfold dafCp dafH calcA
    rw [if_pos h0]; exact ⟨fun e => (by cases e), fun e => (by cases e)⟩

example : Proper ⟨0.8271423317, 0.0442564668, 0.1034694128, 0.020228025, 0.0049037636⟩ := by
  refine ⟨?_, ?_, ?_, ?_, ?_, ?_⟩ <;> norm_num

end Auxi.Coals.Props
