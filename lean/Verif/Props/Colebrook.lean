import Verif.Props.Transport
import Mathlib.Topology.Order.IntermediateValue
import Mathlib.Analysis.SpecialFunctions.Pow.Continuity

/-! # C92, C103: the Colebrook equation has exactly one solution, which rises with roughness and falls with the Reynolds number -/
namespace Auxi.Transport.Props
open Auxi.Transport Auxi.Transport.Spec

/-- The equation in terms of `x = 1 / √f`. -/
theorem colebrook_inv {re r f : ℝ} (hre : 0 < re) (h : ColebrookWhite re r f) : ∃ x, 0 < x ∧ f = 1 / x ^ 2 ∧ x = -2 * Real.logb 10 (r / 3.7 + 2.51 / re * x) := by
  have hs := Real.sqrt_pos.2 h.1
  refine ⟨1 / Real.sqrt f, by positivity, ?_, ?_⟩
  · rw [div_pow, one_pow, Real.sq_sqrt h.1.le, one_div_one_div]
  · rw [show 2.51 / re * (1 / Real.sqrt f) = 2.51 / (re * Real.sqrt f) by field_simp]
    exact h.2

theorem colebrook_of_inv {re r x : ℝ} (hre : 0 < re) (hx : 0 < x) (h : x = -2 * Real.logb 10 (r / 3.7 + 2.51 / re * x)) : ColebrookWhite re r (1 / x ^ 2) := by
  have hs : Real.sqrt (1 / x ^ 2) = 1 / x := by
    rw [show 1 / x ^ 2 = (1 / x) ^ 2 by rw [div_pow, one_pow]]
    exact Real.sqrt_sq (by positivity)
  refine ⟨by positivity, ?_⟩
  rw [hs, one_div_one_div, show 2.51 / (re * (1 / x)) = 2.51 / re * x by field_simp]
  exact h

/-- **C103 (Colebrook, order).** A rougher duct or a smaller Reynolds number has a larger friction factor. -/
theorem C103_colebrook_order {re re' r r' f f' : ℝ} (hre : 0 < re') (hr : 0 ≤ r) (h1 : re' ≤ re) (h2 : r ≤ r') (h3 : re' < re ∨ r < r')
    (hf : ColebrookWhite re r f) (hf' : ColebrookWhite re' r' f') : f < f' := by
  have hre2 : 0 < re := by linarith
  obtain ⟨x, x0, rfl, ex⟩ := colebrook_inv hre2 hf
  obtain ⟨y, y0, rfl, ey⟩ := colebrook_inv hre hf'
  refine one_div_lt_one_div_of_lt (by positivity) (pow_lt_pow_left₀ ?_ y0.le two_ne_zero)
  by_contra hxy
  have hxy := not_lt.1 hxy
  have hb : 2.51 / re ≤ 2.51 / re' := div_le_div_of_nonneg_left (by norm_num) hre h1
  have hb0 : 0 < 2.51 / re := by positivity
  have hlt : r / 3.7 + 2.51 / re * x < r' / 3.7 + 2.51 / re' * y := by
    have ha : r / 3.7 ≤ r' / 3.7 := by gcongr
    rcases h3 with h | h
    · have : 2.51 / re < 2.51 / re' := div_lt_div_of_pos_left (by norm_num) hre h
      nlinarith
    · have : r / 3.7 < r' / 3.7 := by gcongr
      nlinarith
  have := Real.logb_lt_logb (b := 10) (by norm_num) (by positivity) hlt
  linarith

/-- **C92 (Colebrook, exactly one solution).** For a positive Reynolds number and a roughness that is not negative, the Colebrook equation has a solution
exactly if the roughness is below 3.7 diameters, and then exactly one. -/
theorem C92_colebrook_exists {re r : ℝ} (hre : 0 < re) (hr : 0 ≤ r) :
    ((∃ f, ColebrookWhite re r f) ↔ r < 3.7) ∧ ∀ f g, ColebrookWhite re r f → ColebrookWhite re r g → f = g := by
  have hb0 : 0 < 2.51 / re := by positivity
  refine ⟨⟨?_, ?_⟩, ?_⟩
  · rintro ⟨f, hf⟩
    obtain ⟨x, x0, _, ex⟩ := colebrook_inv hre hf
    by_contra h
    have h : 1 ≤ r / 3.7 := by rw [le_div_iff₀ (by norm_num)]; linarith
    have : 0 ≤ Real.logb 10 (r / 3.7 + 2.51 / re * x) := Real.logb_nonneg (by norm_num) (by nlinarith [mul_pos hb0 x0])
    linarith
  · intro h
    have ha : r / 3.7 < 1 := by rw [div_lt_one (by norm_num)]; exact h
    have hc : ContinuousOn (fun x : ℝ => (10 : ℝ) ^ (-x / 2) - (r / 3.7 + 2.51 / re * x)) (Set.Icc 0 (re / 2.51)) := by
      refine ContinuousOn.sub ?_ (by fun_prop)
      exact (Continuous.rpow continuous_const (by fun_prop) (fun x => Or.inl (by norm_num))).continuousOn
    have hpos : 0 < re / 2.51 := by positivity
    have := intermediate_value_Icc' hpos.le hc
    have h0 : (0 : ℝ) ∈ Set.Icc ((10 : ℝ) ^ (-(re / 2.51) / 2) - (r / 3.7 + 2.51 / re * (re / 2.51))) ((10 : ℝ) ^ (-(0 : ℝ) / 2) - (r / 3.7 + 2.51 / re * 0)) := by
      constructor
      · have e : 2.51 / re * (re / 2.51) = 1 := by field_simp
        have : (10 : ℝ) ^ (-(re / 2.51) / 2) ≤ 1 := Real.rpow_le_one_of_one_le_of_nonpos (by norm_num) (by linarith)
        have : 0 ≤ r / 3.7 := by positivity
        rw [e]; linarith
      · rw [neg_zero, zero_div, Real.rpow_zero, mul_zero, add_zero]; linarith
    obtain ⟨x, hx, ex⟩ := this h0
    dsimp only at ex
    have x0 : 0 < x := by
      rcases hx.1.lt_or_eq with h | h
      · exact h
      · rw [← h, neg_zero, zero_div, Real.rpow_zero, mul_zero, add_zero] at ex
        linarith
    refine ⟨_, colebrook_of_inv hre x0 ?_⟩
    rw [show r / 3.7 + 2.51 / re * x = (10 : ℝ) ^ (-x / 2) by linarith, Real.logb_rpow (by norm_num) (by norm_num)]
    ring
  · intro f g hf hg
    obtain ⟨x, x0, rfl, ex⟩ := colebrook_inv hre hf
    obtain ⟨y, y0, rfl, ey⟩ := colebrook_inv hre hg
    have key : ∀ {u v : ℝ}, 0 < u → u = -2 * Real.logb 10 (r / 3.7 + 2.51 / re * u) → v = -2 * Real.logb 10 (r / 3.7 + 2.51 / re * v) → ¬ u < v := by
      intro u v u0 eu ev huv
      have := Real.logb_lt_logb (b := 10) (by norm_num) (show 0 < r / 3.7 + 2.51 / re * u by positivity) (by gcongr : r / 3.7 + 2.51 / re * u < r / 3.7 + 2.51 / re * v)
      linarith
    rw [le_antisymm (not_lt.1 (key y0 ey ex)) (not_lt.1 (key x0 ex ey))]

/-- **C92 (Colebrook, the function).** With a solver that returns a root whenever there is one, the function returns the friction factor of Colebrook and
White for every positive Reynolds number and every roughness from 0 to below 3.7 diameters. -/
theorem C92_colebrook_total {root : (ℝ → Res ℝ) → ℝ → Res ℝ} {re eps d : ℝ} (hre : 0 < re) (hd : 0 < d) (he : 0 ≤ eps) (hr : eps / d < 3.7)
    (hroot : ∀ g x0, (∃ z, g z = .ok 0) → ∃ y, root g x0 = .ok y ∧ g y = .ok 0) :
    ∃ f, frictionColebrook root re eps d = .ok f ∧ ColebrookWhite re (eps / d) f := by
  obtain ⟨z, hz⟩ := (C92_colebrook_exists hre (by positivity : 0 ≤ eps / d)).1.2 hr
  obtain ⟨y, h1, h2⟩ := hroot (colebrook re eps d) 0.02 ⟨z, (C92_colebrook_root hre hd he).2 hz⟩
  exact ⟨y, h1, (C92_colebrook_root hre hd he).1 h2⟩

/-- A commercial steel pipe: the hypotheses hold, and so there is a friction factor. -/
example : ∃ f, ColebrookWhite 100000 (0.000045 / 0.1) f := (C92_colebrook_exists (by norm_num) (by norm_num)).1.2 (by norm_num)

open Classical in
/-- A solver as in `C92_colebrook_total` (chosen, not computed). -/
example : ∃ root : (ℝ → Res ℝ) → ℝ → Res ℝ, ∀ g x0, (∃ z, g z = .ok 0) → ∃ y, root g x0 = .ok y ∧ g y = .ok 0 :=
  ⟨fun g _ => if h : ∃ z, g z = .ok 0 then .ok h.choose else .error .valueError, fun _ _ h => ⟨h.choose, dif_pos h, h.choose_spec⟩⟩

end Auxi.Transport.Props
