import Verif.Proofs.ThermoChem
import Mathlib.MeasureTheory.Integral.DivergenceTheorem
import Mathlib.Analysis.Calculus.Deriv.Pow
import Mathlib.Analysis.Calculus.Deriv.ZPow
import Mathlib.Analysis.SpecialFunctions.Log.Deriv

/-! # Lemmas for C74: the magnetic contributions -/
namespace Auxi.ThermoChem
open Spec MeasureTheory intervalIntegral Set

theorem Spec.MagOK.D_pos {m : Mag} (h : MagOK m) : 0 < m.D := by
  unfold Mag.D
  have : 1 ≤ 1 / m.p := by rw [le_div_iff₀ h.p]; linarith [h.p1]
  have : 0 ≤ (11692 / 15975 : ℝ) * (1 / m.p - 1) := mul_nonneg (by norm_num) (by linarith)
  linarith

/-- The factor in front of all magnetic terms. -/
noncomputable def Mag.k (m : Mag) : ℝ := R * Real.log (m.beta0 + 1)

/-- Below the critical temperature. -/
noncomputable def Mag.cpLo (m : Mag) (T : ℝ) : ℝ := m.k * (m.B * (2 * (T / m.Tc) ^ 3 + 2 * (T / m.Tc) ^ 9 / 3 + 2 * (T / m.Tc) ^ 15 / 5) / m.D)
/-- Above the critical temperature. -/
noncomputable def Mag.cpHi (m : Mag) (T : ℝ) : ℝ :=
  m.k * ((2 * (T / m.Tc) ^ (-5 : ℤ) + 2 * (T / m.Tc) ^ (-15 : ℤ) / 3 + 2 * (T / m.Tc) ^ (-25 : ℤ) / 5) / m.D)
/-- Below the critical temperature. -/
noncomputable def Mag.hLo (m : Mag) (T : ℝ) : ℝ :=
  m.k * (m.Tc * ((-m.A + m.B * ((T / m.Tc) ^ 4 / 2 + (T / m.Tc) ^ 10 / 15 + (T / m.Tc) ^ 16 / 40)) / m.D))
/-- Above the critical temperature. -/
noncomputable def Mag.hHi (m : Mag) (T : ℝ) : ℝ :=
  m.k * (m.Tc * (-((T / m.Tc) ^ (-4 : ℤ) / 2 + (T / m.Tc) ^ (-14 : ℤ) / 21 + (T / m.Tc) ^ (-24 : ℤ) / 60) / m.D))
/-- Below the critical temperature. -/
noncomputable def Mag.sLo (m : Mag) (T : ℝ) : ℝ :=
  -m.k * (1 - m.B * (2 * (T / m.Tc) ^ 3 / 3 + 2 * (T / m.Tc) ^ 9 / 27 + 2 * (T / m.Tc) ^ 15 / 75) / m.D)
/-- Above the critical temperature. -/
noncomputable def Mag.sHi (m : Mag) (T : ℝ) : ℝ :=
  -m.k * ((2 * (T / m.Tc) ^ (-5 : ℤ) / 5 + 2 * (T / m.Tc) ^ (-15 : ℤ) / 45 + 2 * (T / m.Tc) ^ (-25 : ℤ) / 125) / m.D)

theorem Mag.Cp_eq (m : Mag) (h : MagOK m) (T : ℝ) : m.Cp T = if T ≤ m.Tc then m.cpLo T else m.cpHi T := by
  unfold Mag.Cp Mag.cpLo Mag.cpHi Mag.k
  simp only [div_le_one h.Tc]
  split <;> ring

theorem Mag.H_eq (m : Mag) (h : MagOK m) {T : ℝ} (hT : 0 < T) : m.H T = if T ≤ m.Tc then m.hLo T else m.hHi T := by
  unfold Mag.H Mag.hLo Mag.hHi Mag.k
  have hc := h.Tc.ne'
  have hD := h.D_pos.ne'
  simp only [div_le_one h.Tc]
  split
  · field_simp
  · have e : ∀ n : ℤ, (T / m.Tc) ^ n = (T / m.Tc) ^ (n - 1) * (T / m.Tc) := fun n => by
      rw [zpow_sub_one₀ (by positivity)]; field_simp
    rw [e (-4), e (-14), e (-24)]
    norm_num
    field_simp

theorem Mag.S_eq (m : Mag) (h : MagOK m) (T : ℝ) : m.S T = if T ≤ m.Tc then m.sLo T else m.sHi T := by
  unfold Mag.S Mag.sLo Mag.sHi Mag.k
  simp only [div_le_one h.Tc]
  split <;> ring

theorem dpow (c : ℝ) (n : ℕ) (T : ℝ) : HasDerivAt (fun x => (x / c) ^ (n + 1)) ((n + 1 : ℕ) * (T / c) ^ n * (1 / c)) T := by
  have := ((hasDerivAt_id T).div_const c).pow (n + 1)
  exact this.congr_deriv (by simp)

theorem dzpow {c : ℝ} (hc : 0 < c) (n : ℤ) {T : ℝ} (hT : 0 < T) : HasDerivAt (fun x => (x / c) ^ n) (n * (T / c) ^ (n - 1) * (1 / c)) T := by
  have h1 := (hasDerivAt_id T).div_const c
  have h2 := hasDerivAt_zpow n (T / c) (Or.inl (by positivity))
  exact h2.comp T h1

theorem Mag.hLo_deriv (m : Mag) (h : MagOK m) (T : ℝ) : HasDerivAt m.hLo (m.cpLo T) T := by
  have hc := h.Tc.ne'
  have := ((((((dpow m.Tc 3 T).div_const 2).add ((dpow m.Tc 9 T).div_const 15)).add ((dpow m.Tc 15 T).div_const 40)).const_mul m.B).const_add (-m.A)).div_const m.D
  have := (this.const_mul m.Tc).const_mul m.k
  refine this.congr_deriv ?_
  unfold Mag.cpLo
  push_cast
  field_simp
  ring

theorem Mag.hHi_deriv (m : Mag) (h : MagOK m) {T : ℝ} (hT : 0 < T) : HasDerivAt m.hHi (m.cpHi T) T := by
  have hc := h.Tc.ne'
  have := ((((dzpow h.Tc (-4) hT).div_const 2).add ((dzpow h.Tc (-14) hT).div_const 21)).add ((dzpow h.Tc (-24) hT).div_const 60)).neg.div_const m.D
  have := (this.const_mul m.Tc).const_mul m.k
  refine this.congr_deriv ?_
  unfold Mag.cpHi
  rw [show (-4 - 1 : ℤ) = -5 from rfl, show (-14 - 1 : ℤ) = -15 from rfl, show (-24 - 1 : ℤ) = -25 from rfl]
  generalize (T / m.Tc) ^ (-5 : ℤ) = u
  generalize (T / m.Tc) ^ (-15 : ℤ) = v
  generalize (T / m.Tc) ^ (-25 : ℤ) = w
  push_cast
  field_simp
  ring

theorem Mag.sLo_deriv (m : Mag) (h : MagOK m) {T : ℝ} (hT : 0 < T) : HasDerivAt m.sLo (m.cpLo T / T) T := by
  have hc := h.Tc.ne'
  have := (((((((dpow m.Tc 2 T).const_mul 2).div_const 3).add (((dpow m.Tc 8 T).const_mul 2).div_const 27)).add
    (((dpow m.Tc 14 T).const_mul 2).div_const 75)).const_mul m.B).div_const m.D).const_sub 1
  have := this.const_mul (-m.k)
  refine this.congr_deriv ?_
  unfold Mag.cpLo
  push_cast
  field_simp
  ring

theorem Mag.sHi_deriv (m : Mag) (h : MagOK m) {T : ℝ} (hT : 0 < T) : HasDerivAt m.sHi (m.cpHi T / T) T := by
  have hc := h.Tc.ne'
  have := (((((dzpow h.Tc (-5) hT).const_mul 2).div_const 5).add (((dzpow h.Tc (-15) hT).const_mul 2).div_const 45)).add
    (((dzpow h.Tc (-25) hT).const_mul 2).div_const 125)).div_const m.D
  have := this.const_mul (-m.k)
  refine this.congr_deriv ?_
  unfold Mag.cpHi
  have e : ∀ n : ℤ, (T / m.Tc) ^ n = (T / m.Tc) ^ (n - 1) * (T / m.Tc) := fun n => by
    rw [zpow_sub_one₀ (by positivity)]; field_simp
  rw [e (-5), e (-15), e (-25)]
  norm_num
  field_simp
  ring

theorem Mag.h_join (m : Mag) (h : MagOK m) : m.hLo m.Tc = m.hHi m.Tc := by
  have hc := h.Tc.ne'
  have hD := h.D_pos.ne'
  unfold Mag.hLo Mag.hHi Mag.A Mag.B
  have hp := h.p.ne'
  rw [div_self hc]
  simp only [one_zpow, one_pow]
  congr 3
  field_simp
  ring

theorem Mag.s_join (m : Mag) (h : MagOK m) : m.sLo m.Tc = m.sHi m.Tc := by
  have hc := h.Tc.ne'
  have hD := h.D_pos.ne'
  unfold Mag.sLo Mag.sHi
  have hp := h.p.ne'
  rw [div_self hc]
  simp only [one_zpow, one_pow]
  congr 1
  rw [eq_div_iff hD, sub_mul, div_mul_cancel₀ _ hD, one_mul]
  unfold Mag.D Mag.B
  ring

/-- Two functions glued at a point. -/
theorem glue_deriv {f g f' g' F : ℝ → ℝ} {c : ℝ} (hf : ∀ x, 0 < x → HasDerivAt f (f' x) x) (hg : ∀ x, 0 < x → HasDerivAt g (g' x) x) (hF : ∀ x, 0 < x → F x = if x ≤ c then f x else g x)
    {x : ℝ} (hx : 0 < x) (hne : x ≠ c) : HasDerivAt F (if x ≤ c then f' x else g' x) x := by
  rcases lt_or_gt_of_ne hne with h | h
  · rw [if_pos h.le]
    refine (hf x hx).congr_of_eventuallyEq ?_
    filter_upwards [Iio_mem_nhds h, Ioi_mem_nhds hx] with y hy hy0
    rw [hF y hy0, if_pos (le_of_lt hy)]
  · rw [if_neg h.not_ge]
    refine (hg x hx).congr_of_eventuallyEq ?_
    filter_upwards [Ioi_mem_nhds h, Ioi_mem_nhds hx] with y hy hy0
    rw [hF y hy0, if_neg (not_le.2 hy)]

theorem glue_continuous {f g F : ℝ → ℝ} {c : ℝ} (hc : 0 < c) (hf : ∀ x, 0 < x → ContinuousAt f x) (hg : ∀ x, 0 < x → ContinuousAt g x) (hF : ∀ x, 0 < x → F x = if x ≤ c then f x else g x)
    (hj : f c = g c) {x : ℝ} (hx : 0 < x) : ContinuousAt F x := by
  have hF' : F =ᶠ[nhds x] fun x => if x ≤ c then f x else g x := by
    filter_upwards [Ioi_mem_nhds hx] with y hy using hF y hy
  refine ContinuousAt.congr ?_ hF'.symm
  have : ContinuousOn (fun x => if x ≤ c then f x else g x) (Ioi 0) := by
    refine ContinuousOn.if (p := fun x => x ≤ c) ?_ ?_ ?_
    · rintro a ⟨ha, hb⟩
      have : frontier {x : ℝ | x ≤ c} = {c} := frontier_Iic
      rw [this] at hb
      rw [mem_singleton_iff.1 hb]; exact hj
    · intro y hy; exact (hf y hy.1).continuousWithinAt
    · intro y hy; exact (hg y hy.1).continuousWithinAt
  exact this.continuousAt (Ioi_mem_nhds hx)

/-- The fundamental theorem for glued functions. -/
theorem glue_integral {f g f' g' F F' : ℝ → ℝ} {c : ℝ} (hc : 0 < c) (hf : ∀ x, 0 < x → HasDerivAt f (f' x) x) (hg : ∀ x, 0 < x → HasDerivAt g (g' x) x)
    (hF : ∀ x, 0 < x → F x = if x ≤ c then f x else g x) (hF' : ∀ x, 0 < x → F' x = if x ≤ c then f' x else g' x)
    (cf : ContinuousOn f' (Ioi 0)) (cg : ContinuousOn g' (Ioi 0)) (hj : f c = g c) {a b : ℝ} (ha : 0 < a) (hb : 0 < b) :
    IntervalIntegrable F' volume a b ∧ (∫ x in a..b, F' x) = F b - F a := by
  have hpos : ∀ x ∈ uIcc a b, 0 < x := fun x hx => by rcases mem_uIcc.1 hx with h | h <;> linarith
  have hi : IntervalIntegrable F' volume a b := by
    have h1 : IntervalIntegrable f' volume a b := (cf.mono (fun x hx => hpos x hx)).intervalIntegrable
    have h2 : IntervalIntegrable g' volume a b := (cg.mono (fun x hx => hpos x hx)).intervalIntegrable
    have h3 : IntervalIntegrable (fun x => if x ≤ c then f' x else g' x) volume a b := by
      rw [intervalIntegrable_iff] at *
      have := Integrable.piecewise (μ := volume.restrict (uIoc a b)) (s := Iic c) (f := f') (g := g') measurableSet_Iic (Integrable.integrableOn h1) (Integrable.integrableOn h2)
      exact this.congr (Filter.Eventually.of_forall (fun x => by simp only [Set.piecewise, mem_Iic]))
    exact h3.congr (fun x hx => (hF' x (hpos x (uIoc_subset_uIcc hx))).symm)
  refine ⟨hi, ?_⟩
  refine integral_eq_of_hasDerivAt_off_countable F F' (countable_singleton c) ?_ ?_ hi
  · intro x hx
    exact (glue_continuous hc (fun y hy => (hf y hy).continuousAt) (fun y hy => (hg y hy).continuousAt) hF hj (hpos x hx)).continuousWithinAt
  · rintro x ⟨hx, hn⟩
    have h0 : 0 < x := lt_trans (lt_min ha hb) hx.1
    rw [hF' x h0]
    exact glue_deriv hf hg hF h0 hn

theorem Mag.cpLo_cont (m : Mag) : Continuous m.cpLo := by unfold Mag.cpLo; fun_prop
theorem Mag.cpHi_cont (m : Mag) (h : MagOK m) : ContinuousOn m.cpHi (Ioi 0) := by
  unfold Mag.cpHi
  have hz : ∀ n : ℤ, ContinuousOn (fun T : ℝ => (T / m.Tc) ^ n) (Ioi 0) := fun n x hx => (dzpow h.Tc n hx).continuousAt.continuousWithinAt
  exact ContinuousOn.mul continuousOn_const (((((hz _).const_smul (2 : ℝ)).add (((hz _).const_smul (2 : ℝ)).div_const _)).add (((hz _).const_smul (2 : ℝ)).div_const _)).div_const _)

theorem Mag.Cp_integral (m : Mag) (h : MagOK m) {a b : ℝ} (ha : 0 < a) (hb : 0 < b) :
    IntervalIntegrable m.Cp volume a b ∧ (∫ x in a..b, m.Cp x) = m.H b - m.H a :=
  glue_integral h.Tc (fun x _ => m.hLo_deriv h x) (fun x hx => m.hHi_deriv h hx) (fun x hx => m.H_eq h hx) (fun x _ => m.Cp_eq h x)
    m.cpLo_cont.continuousOn (m.cpHi_cont h) (m.h_join h) ha hb

theorem Mag.CpT_integral (m : Mag) (h : MagOK m) {a b : ℝ} (ha : 0 < a) (hb : 0 < b) :
    IntervalIntegrable (fun x => m.Cp x / x) volume a b ∧ (∫ x in a..b, m.Cp x / x) = m.S b - m.S a := by
  have hid : ∀ x ∈ Ioi (0 : ℝ), x ≠ 0 := fun x hx => ne_of_gt hx
  exact glue_integral h.Tc (fun x hx => m.sLo_deriv h hx) (fun x hx => m.sHi_deriv h hx) (fun x _ => m.S_eq h x)
    (fun x _ => by rw [m.Cp_eq h x]; split <;> rfl)
    (m.cpLo_cont.continuousOn.div continuousOn_id hid) ((m.cpHi_cont h).div continuousOn_id hid) (m.s_join h) ha hb

theorem Mag.G_eq (m : Mag) (T : ℝ) : m.G T = m.H T - T * m.S T := by
  unfold Mag.G Mag.H Mag.S
  dsimp only
  split <;> ring

end Auxi.ThermoChem
