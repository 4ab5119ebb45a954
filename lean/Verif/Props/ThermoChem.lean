import Verif.Proofs.ThermoMag
import Mathlib.Analysis.Asymptotics.Lemmas

/-!
# Properties C70–C77: thermochemistry
-/
namespace Auxi.ThermoChem.Props
open Auxi.ThermoChem Auxi.ThermoChem.Spec MeasureTheory intervalIntegral Set

/-! ## Samples -/

/-- 298.15 K – 1000 K, with a term that integrates to a logarithm in `H` and one that does in `S`. -/
noncomputable def rec1 : CpRecord := ⟨298.15, 1000, [(20, 0), (1 / 100, 1), (-100000, -2), (5, -1), (2, 1 / 2)]⟩
/-- 1000 K – 2000 K. -/
noncomputable def rec2 : CpRecord := ⟨1000, 2000, [(40, 0), (1 / 1000, 1)]⟩
/-- A phase with two records, not in order. -/
noncomputable def sampleP : Phase := ⟨-800000, 87, [(2000, rec2), (1000, rec1)], none⟩
/-- Iron's magnetic data. -/
noncomputable def ironMag : Mag := ⟨1043, 2.22, 0.4⟩
/-- The same phase with magnetic data. -/
noncomputable def sampleM : Phase := { sampleP with mag := some ironMag }

theorem sampleP_covers : Covers sampleP 298.15 [(1000, rec1), (2000, rec2)] :=
  ⟨by norm_num, by simp, List.Perm.swap _ _ _, ⟨rfl, rfl, by norm_num [rec1], rfl, rfl, by norm_num [rec1, rec2], trivial⟩⟩
theorem sampleM_covers : Covers sampleM 298.15 [(1000, rec1), (2000, rec2)] :=
  ⟨by norm_num, by simp, List.Perm.swap _ _ _, sampleP_covers.contiguous⟩
theorem ironMag_ok : MagOK ironMag := ⟨by norm_num [ironMag], by norm_num [ironMag], by norm_num [ironMag]⟩
theorem sampleM_ok : PhaseMagOK sampleM := by rintro m hm; cases hm; exact ironMag_ok
theorem sampleP_ok : PhaseMagOK sampleP := by rintro m hm; cases hm

/-! ## Auxiliary facts -/

theorem Cp_cont (r : CpRecord) : ContinuousOn r.Cp (Ioi 0) := by
  have : r.Cp = fun x => (r.terms.map (fun t => t.1 * x ^ t.2)).sum := funext (Cp_sum r)
  rw [this]
  generalize r.terms = ts
  induction ts with
  | nil => simpa using continuousOn_const
  | cons t ts ih =>
    simp only [List.map_cons, List.sum_cons]
    refine ContinuousOn.add (continuousOn_const.mul ?_) ih
    intro x hx
    exact (Real.continuousAt_rpow_const x t.2 (Or.inl (ne_of_gt hx))).continuousWithinAt

theorem CpMag_integral {p : Phase} (h : PhaseMagOK p) {a b : ℝ} (ha : 0 < a) (hb : 0 < b) :
    IntervalIntegrable p.CpMag volume a b ∧ (∫ x in a..b, p.CpMag x) = p.HMag b - p.HMag a := by
  cases hm : p.mag with
  | none =>
    have h1 : p.CpMag = fun _ => 0 := by funext x; simp [Phase.CpMag, hm]
    have h2 : p.HMag = fun _ => 0 := by funext x; simp [Phase.HMag, hm]
    rw [h1, h2]
    exact ⟨intervalIntegrable_const, by simp⟩
  | some m =>
    have h1 : p.CpMag = m.Cp := by funext x; simp [Phase.CpMag, hm]
    have h2 : p.HMag = m.H := by funext x; simp [Phase.HMag, hm]
    rw [h1, h2]
    exact m.Cp_integral (h m hm) ha hb

theorem CpTMag_integral {p : Phase} (h : PhaseMagOK p) {a b : ℝ} (ha : 0 < a) (hb : 0 < b) :
    IntervalIntegrable (fun x => p.CpMag x / x) volume a b ∧ (∫ x in a..b, p.CpMag x / x) = p.SMag b - p.SMag a := by
  cases hm : p.mag with
  | none =>
    have h1 : p.CpMag = fun _ => 0 := by funext x; simp [Phase.CpMag, hm]
    have h2 : p.SMag = fun _ => 0 := by funext x; simp [Phase.SMag, hm]
    rw [h1, h2]
    simp
  | some m =>
    have h1 : p.CpMag = m.Cp := by funext x; simp [Phase.CpMag, hm]
    have h2 : p.SMag = m.S := by funext x; simp [Phase.SMag, hm]
    rw [h1, h2]
    exact m.CpT_integral (h m hm) ha hb

theorem cp_eq {p : Phase} {T0 : ℝ} {l : List (ℝ × CpRecord)} (h : Covers p T0 l) {cp : ℝ → ℝ} (hcp : IsCp p cp) {x : ℝ} (hx : 0 < x) :
    cp x = cpOf l x + p.CpMag x := by
  have := hcp x hx
  rw [phase_Cp h] at this
  exact (Except.ok.inj this).symm

theorem pos_of_uIcc {a b x : ℝ} (ha : 0 < a) (hb : 0 < b) (hx : x ∈ uIcc a b) : 0 < x := by rcases mem_uIcc.1 hx with h | h <;> linarith

theorem cpOf_integrable (l : List (ℝ × CpRecord)) {a b : ℝ} (ha : 0 < a) (hb : 0 < b) : IntervalIntegrable (cpOf l) volume a b :=
  piece_integrable kindH l ha hb
theorem cpTOf_integrable (l : List (ℝ × CpRecord)) {a b : ℝ} (ha : 0 < a) (hb : 0 < b) : IntervalIntegrable (fun x => cpOf l x / x) volume a b :=
  (piece_integrable kindS l ha hb).congr (fun x _ => piece_S l x)

theorem hOf_diff {T0 : ℝ} {l : List (ℝ × CpRecord)} (h0 : 0 < T0) (hne : l ≠ []) (hc : Contiguous T0 l) {a b : ℝ} (ha : 0 < a) (hb : 0 < b) :
    hOf l b - hOf l a = ∫ x in a..b, cpOf l x := by
  unfold hOf
  rw [total_integral kindH l hne h0 hc hb, total_integral kindH l hne h0 hc ha]
  exact integral_interval_sub_left (cpOf_integrable l h0 hb) (cpOf_integrable l h0 ha)
theorem sOf_diff {T0 : ℝ} {l : List (ℝ × CpRecord)} (h0 : 0 < T0) (hne : l ≠ []) (hc : Contiguous T0 l) {a b : ℝ} (ha : 0 < a) (hb : 0 < b) :
    sOf l b - sOf l a = ∫ x in a..b, cpOf l x / x := by
  unfold sOf
  rw [total_integral kindS l hne h0 hc hb, total_integral kindS l hne h0 hc ha,
    integral_interval_sub_left (piece_integrable kindS l h0 hb) (piece_integrable kindS l h0 ha)]
  exact intervalIntegral.integral_congr (fun x _ => piece_S l x)

theorem hOf_start {T0 : ℝ} {l : List (ℝ × CpRecord)} (h0 : 0 < T0) (hne : l ≠ []) (hc : Contiguous T0 l) : hOf l T0 = 0 := by
  unfold hOf; rw [total_integral kindH l hne h0 hc h0]; simp
theorem sOf_start {T0 : ℝ} {l : List (ℝ × CpRecord)} (h0 : 0 < T0) (hne : l ≠ []) (hc : Contiguous T0 l) : sOf l T0 = 0 := by
  unfold sOf; rw [total_integral kindS l hne h0 hc h0]; simp

theorem cp_integral {p : Phase} {T0 : ℝ} {l : List (ℝ × CpRecord)} (h : Covers p T0 l) (hm : PhaseMagOK p) {cp : ℝ → ℝ} (hcp : IsCp p cp) {a b : ℝ}
    (ha : 0 < a) (hb : 0 < b) : (∫ x in a..b, cp x) = hOf l b - hOf l a + (p.HMag b - p.HMag a) := by
  rw [hOf_diff h.pos h.ne h.contiguous ha hb, ← (CpMag_integral hm ha hb).2, ← intervalIntegral.integral_add (cpOf_integrable l ha hb) (CpMag_integral hm ha hb).1]
  exact intervalIntegral.integral_congr (fun x hx => cp_eq h hcp (pos_of_uIcc ha hb hx))

theorem cpT_integral {p : Phase} {T0 : ℝ} {l : List (ℝ × CpRecord)} (h : Covers p T0 l) (hm : PhaseMagOK p) {cp : ℝ → ℝ} (hcp : IsCp p cp) {a b : ℝ}
    (ha : 0 < a) (hb : 0 < b) : (∫ x in a..b, cp x / x) = sOf l b - sOf l a + (p.SMag b - p.SMag a) := by
  rw [sOf_diff h.pos h.ne h.contiguous ha hb, ← (CpTMag_integral hm ha hb).2,
    ← intervalIntegral.integral_add (cpTOf_integrable l ha hb) (CpTMag_integral hm ha hb).1]
  refine intervalIntegral.integral_congr (fun x hx => ?_)
  simp only [cp_eq h hcp (pos_of_uIcc ha hb hx), add_div]

theorem surplus_none {p : Phase} {t x T : ℝ} (h : p.mag = none ∨ T ≤ t) : surplus p t x T = 0 := by
  unfold surplus
  rcases h with h | h
  · simp [Phase.CpMag, h]
  · rw [if_pos h]

/-! ## C70: the derivative relations -/

/-- **C70 (records).** Within its range a record's enthalpy and entropy are antiderivatives of `Cp` and `Cp/T`, whatever the exponents. -/
theorem C70_record (r : CpRecord) (T : ℝ) (h0 : 0 < r.Tmin) (hT : 0 < T) (h1 : T < r.Tmax) :
    HasDerivAt r.H (r.Cp T) T ∧ HasDerivAt r.S (r.Cp T / T) T := by
  have hmax : 0 < r.Tmax := hT.trans h1
  have hev : ∀ᶠ y in nhds T, 0 < y ∧ y < r.Tmax := by
    filter_upwards [Ioi_mem_nhds hT, Iio_mem_nhds h1] with y a b using ⟨a, b⟩
  have hlim : ∀ y, y < r.Tmax → r.limit y = y := fun y hy => by unfold CpRecord.limit; rw [if_pos hy]
  have c1 := (Cp_cont r)
  have c2 : ContinuousOn (fun x => r.Cp x / x) (Ioi 0) := c1.div continuousOn_id (fun x hx => ne_of_gt hx)
  constructor
  · have := integral_hasDerivAt_right (Cp_integrable r h0 hT) (c1.stronglyMeasurableAtFilter isOpen_Ioi T hT) (c1.continuousAt (Ioi_mem_nhds hT))
    refine this.congr_of_eventuallyEq ?_
    filter_upwards [hev] with y hy
    rw [H_integral r h0 hmax hy.1, hlim y hy.2]
  · have := integral_hasDerivAt_right (CpT_integrable r h0 hT) (c2.stronglyMeasurableAtFilter isOpen_Ioi T hT) (c2.continuousAt (Ioi_mem_nhds hT))
    refine this.congr_of_eventuallyEq ?_
    filter_upwards [hev] with y hy
    rw [S_integral r h0 hmax hy.1, hlim y hy.2]

example : (0 : ℝ) < rec1.Tmin ∧ (0 : ℝ) < 500 ∧ (500 : ℝ) < rec1.Tmax := by norm_num [rec1]

/-- **C70 (phases, enthalpy).** Between any two temperatures — below, within or above the data, across record boundaries — the enthalpy of a phase
without magnetic data changes by the integral of its heat capacity.  With magnetic data this holds up to the upper end of the data. -/
theorem C70_enthalpy (p : Phase) (T0 : ℝ) (l : List (ℝ × CpRecord)) (h : Covers p T0 l) (hm : PhaseMagOK p) (cp : ℝ → ℝ) (hcp : IsCp p cp)
    (T₁ T₂ : ℝ) (h₁ : 0 < T₁) (h₂ : 0 < T₂) (hr : p.mag = none ∨ (T₁ ≤ top T0 l ∧ T₂ ≤ top T0 l)) :
    ∃ H₁ H₂, p.H T₁ = .ok H₁ ∧ p.H T₂ = .ok H₂ ∧ H₂ - H₁ = ∫ x in T₁..T₂, cp x := by
  refine ⟨_, _, phase_H h T₁, phase_H h T₂, ?_⟩
  rw [cp_integral h hm hcp h₁ h₂, surplus_none (hr.imp id (·.1)), surplus_none (hr.imp id (·.2))]
  ring

/-- **C70 (phases, entropy).** The same for entropy and `Cp/T`. -/
theorem C70_entropy (p : Phase) (T0 : ℝ) (l : List (ℝ × CpRecord)) (h : Covers p T0 l) (hm : PhaseMagOK p) (cp : ℝ → ℝ) (hcp : IsCp p cp)
    (T₁ T₂ : ℝ) (h₁ : 0 < T₁) (h₂ : 0 < T₂) (hr : p.mag = none ∨ (T₁ ≤ top T0 l ∧ T₂ ≤ top T0 l)) :
    ∃ S₁ S₂, p.S T₁ = .ok S₁ ∧ p.S T₂ = .ok S₂ ∧ S₂ - S₁ = ∫ x in T₁..T₂, cp x / x := by
  refine ⟨_, _, phase_S h T₁, phase_S h T₂, ?_⟩
  rw [cpT_integral h hm hcp h₁ h₂, surplus_none (hr.imp id (·.1)), surplus_none (hr.imp id (·.2))]
  ring

example : ∃ cp, IsCp sampleP cp := ⟨_, fun T _ => phase_Cp sampleP_covers T⟩
example : ∃ cp, IsCp sampleM cp := ⟨_, fun T _ => phase_Cp sampleM_covers T⟩
example : top 298.15 [(1000, rec1), (2000, rec2)] = 2000 := by simp [top, rec2]

/-! ## C71: Gibbs energy -/

/-- **C71.** `G = H - T·S` for every phase and temperature. -/
theorem C71_gibbs (p : Phase) (T H S : ℝ) (hH : p.H T = .ok H) (hS : p.S T = .ok S) : p.G T = .ok (H - T * S) := by
  have hg : p.GMag T = p.HMag T - T * p.SMag T := by
    unfold Phase.GMag Phase.HMag Phase.SMag
    cases p.mag with
    | none => simp
    | some m => exact m.G_eq T
  unfold Phase.H at hH
  unfold Phase.S at hS
  unfold Phase.G
  obtain ⟨e1, e2⟩ := gLoop_acc T (sortRecords p.records) p.DHref p.Sref
  rw [e1]
  cases hh : hLoop T (sortRecords p.records) p.DHref with
  | mk x b =>
    cases hs : sLoop T (sortRecords p.records) p.Sref with
    | mk y b' =>
      rw [hh, hs] at e2
      rw [hh] at hH
      rw [hs] at hS
      dsimp only at e2 hH hS ⊢
      subst e2
      cases b with
      | true =>
        dsimp only at hH hS ⊢
        cases hH; cases hS
        rw [hg]; congr 1; ring
      | false =>
        dsimp only at hH hS ⊢
        cases hl : (sortRecords p.records).getLast? with
        | none => rw [hl] at hH; cases hH
        | some r =>
          rw [hl] at hH hS
          dsimp only at hH hS ⊢
          cases hc : p.Cp r.1 with
          | error e => rw [hc] at hH; cases hH
          | ok c =>
            rw [hc] at hH hS
            dsimp only at hH hS ⊢
            cases hH; cases hS
            rw [hg]; congr 1; ring

/-- **C71 (definedness).** The three functions are defined at all temperatures as soon as the phase has a record (contiguous or not). -/
theorem C71_defined (p : Phase) (T : ℝ) (h : p.records ≠ []) : (∃ H, p.H T = .ok H) ∧ (∃ S, p.S T = .ok S) ∧ (∃ G, p.G T = .ok G) ∧ ∃ c, p.Cp T = .ok c := by
  have hne : sortRecords p.records ≠ [] := by
    intro e
    have := (sortRecords_perm p.records).length_eq
    rw [e] at this
    exact h (List.length_eq_zero_iff.1 this.symm)
  obtain ⟨r, hr⟩ : ∃ r, (sortRecords p.records).getLast? = some r := by
    cases hl : (sortRecords p.records).getLast? with
    | none => exact absurd (List.getLast?_eq_none_iff.1 hl) hne
    | some r => exact ⟨r, rfl⟩
  have hc : ∀ T, ∃ c, p.Cp T = .ok c := by
    intro T; unfold Phase.Cp; rw [hr]; cases cpLoop T (sortRecords p.records) <;> exact ⟨_, rfl⟩
  obtain ⟨c, hcr⟩ := hc r.1
  have hH : ∃ H, p.H T = .ok H := by
    unfold Phase.H; rw [hr]; dsimp only; rw [hcr]
    rcases hLoop T (sortRecords p.records) p.DHref with ⟨x, _ | _⟩ <;> exact ⟨_, rfl⟩
  have hS : ∃ S, p.S T = .ok S := by
    unfold Phase.S; rw [hr]; dsimp only; rw [hcr]
    rcases sLoop T (sortRecords p.records) p.Sref with ⟨x, _ | _⟩ <;> exact ⟨_, rfl⟩
  obtain ⟨H, hH⟩ := hH
  obtain ⟨S, hS⟩ := hS
  exact ⟨⟨H, hH⟩, ⟨S, hS⟩, ⟨_, C71_gibbs p T H S hH hS⟩, hc T⟩

example : sampleM.records ≠ [] := by simp [sampleM, sampleP]

/-! ## C72: continuity -/

theorem HMag_cont {p : Phase} (h : PhaseMagOK p) {T : ℝ} (hT : 0 < T) : ContinuousAt p.HMag T := by
  cases hm : p.mag with
  | none =>
    have h2 : p.HMag = fun _ => 0 := by funext x; simp [Phase.HMag, hm]
    rw [h2]; exact continuousAt_const
  | some m =>
    have h2 : p.HMag = m.H := by funext x; simp [Phase.HMag, hm]
    have ok := h m hm
    rw [h2]
    exact glue_continuous ok.Tc (fun x _ => (m.hLo_deriv ok x).continuousAt) (fun x hx => (m.hHi_deriv ok hx).continuousAt) (fun x hx => m.H_eq ok hx) (m.h_join ok) hT

theorem SMag_cont {p : Phase} (h : PhaseMagOK p) {T : ℝ} (hT : 0 < T) : ContinuousAt p.SMag T := by
  cases hm : p.mag with
  | none =>
    have h2 : p.SMag = fun _ => 0 := by funext x; simp [Phase.SMag, hm]
    rw [h2]; exact continuousAt_const
  | some m =>
    have h2 : p.SMag = m.S := by funext x; simp [Phase.SMag, hm]
    have ok := h m hm
    rw [h2]
    exact glue_continuous ok.Tc (fun x hx => (m.sLo_deriv ok hx).continuousAt) (fun x hx => (m.sHi_deriv ok hx).continuousAt) (fun x hx => m.S_eq ok x) (m.s_join ok) hT

/-- A locally bounding function of the heat capacity. -/
noncomputable def bound (l : List (ℝ × CpRecord)) (x : ℝ) : ℝ := (l.map (fun r => |r.2.Cp x| + |r.2.Cp r.1|)).sum

theorem bound_cont (l : List (ℝ × CpRecord)) : ContinuousOn (bound l) (Ioi 0) := by
  unfold bound
  induction l with
  | nil => simpa using continuousOn_const
  | cons r l ih =>
    simp only [List.map_cons, List.sum_cons]
    exact ((Cp_cont r.2).abs.add continuousOn_const).add ih

theorem bound_nonneg (l : List (ℝ × CpRecord)) (x : ℝ) : 0 ≤ bound l x :=
  List.sum_nonneg (by intro y hy; rw [List.mem_map] at hy; obtain ⟨r, _, rfl⟩ := hy; positivity)

theorem mem_le_bound {l : List (ℝ × CpRecord)} {r : ℝ × CpRecord} (hr : r ∈ l) (x : ℝ) : |r.2.Cp x| + |r.2.Cp r.1| ≤ bound l x := by
  induction l with
  | nil => cases hr
  | cons s l ih =>
    have : bound (s :: l) x = |s.2.Cp x| + |s.2.Cp s.1| + bound l x := rfl
    rw [this]
    rcases List.mem_cons.1 hr with rfl | hr
    · linarith [bound_nonneg l x]
    · linarith [ih hr, abs_nonneg (s.2.Cp x), abs_nonneg (s.2.Cp s.1)]

theorem cpLoop_mem {T : ℝ} {l : List (ℝ × CpRecord)} {r : CpRecord} (h : cpLoop T l = some r) : ∃ k, (k, r) ∈ l := by
  induction l with
  | nil => cases h
  | cons s l ih =>
    unfold cpLoop at h
    split at h
    · cases h; exact ⟨s.1, by simp⟩
    · obtain ⟨k, hk⟩ := ih h; exact ⟨k, List.mem_cons_of_mem _ hk⟩

theorem cpOf_le (l : List (ℝ × CpRecord)) (x : ℝ) : |cpOf l x| ≤ bound l x := by
  unfold cpOf piece
  split
  · rename_i r hr
    obtain ⟨k, hk⟩ := cpLoop_mem hr
    have := mem_le_bound hk x
    dsimp only at this
    linarith [abs_nonneg (r.Cp k)]
  · split
    · simpa using bound_nonneg l x
    · rename_i r hr
      have := mem_le_bound (List.mem_of_getLast? hr) x
      linarith [abs_nonneg (r.2.Cp x)]

/-- Near every positive temperature the heat capacity is bounded. -/
theorem cpOf_locally (l : List (ℝ × CpRecord)) {T : ℝ} (hT : 0 < T) : ∃ M, 0 ≤ M ∧ ∃ δ > 0, δ ≤ T / 2 ∧ ∀ x, |x - T| < δ → |cpOf l x| ≤ M := by
  have hc := (bound_cont l).continuousAt (Ioi_mem_nhds hT)
  have : ∀ᶠ x in nhds T, bound l x < bound l T + 1 := hc.eventually_lt continuousAt_const (by linarith)
  obtain ⟨δ, hδ, h⟩ := Metric.eventually_nhds_iff.1 this
  refine ⟨bound l T + 1, by linarith [bound_nonneg l T], min δ (T / 2), by positivity, min_le_right _ _, fun x hx => ?_⟩
  have := h (y := x) (by rw [Real.dist_eq]; exact lt_of_lt_of_le hx (min_le_left _ _))
  exact (cpOf_le l x).trans this.le

theorem lipschitz_cont {f : ℝ → ℝ} {T M δ : ℝ} (hδ : 0 < δ) (h : ∀ x, |x - T| < δ → |f x - f T| ≤ M * |x - T|) : ContinuousAt f T := by
  rw [ContinuousAt, tendsto_iff_norm_sub_tendsto_zero]
  have h1 : Filter.Tendsto (fun x => M * |x - T|) (nhds T) (nhds 0) := by
    have : ContinuousAt (fun x => M * |x - T|) T := by fun_prop
    simpa [ContinuousAt] using this
  refine squeeze_zero' (Filter.Eventually.of_forall (fun x => norm_nonneg _)) ?_ h1
  filter_upwards [Metric.ball_mem_nhds T hδ] with x hx
  rw [Real.norm_eq_abs]
  exact h x (by rwa [Metric.mem_ball, Real.dist_eq] at hx)

theorem near {T x y δ : ℝ} (hδ : δ ≤ T / 2) (hx : |x - T| < δ) (hy : y ∈ uIcc T x) : |y - T| ≤ |x - T| ∧ T / 2 ≤ y := by
  have h1 : |y - T| ≤ |x - T| := by
    rcases mem_uIcc.1 hy with h | h
    · rw [abs_of_nonneg (by linarith), abs_of_nonneg (by linarith)]; linarith
    · rw [abs_of_nonpos (by linarith), abs_of_nonpos (by linarith)]; linarith
  refine ⟨h1, ?_⟩
  have := (abs_lt.1 (lt_of_le_of_lt h1 hx)).1
  linarith

theorem hOf_cont {T0 : ℝ} {l : List (ℝ × CpRecord)} (h0 : 0 < T0) (hne : l ≠ []) (hc : Contiguous T0 l) {T : ℝ} (hT : 0 < T) :
    ContinuousAt (hOf l) T ∧ ContinuousAt (sOf l) T := by
  obtain ⟨M, hM, δ, hδ, hδ', hb⟩ := cpOf_locally l hT
  constructor
  · refine lipschitz_cont (M := M) hδ (fun x hx => ?_)
    have hx0 : 0 < x := by have := (abs_lt.1 hx).1; linarith
    rw [hOf_diff h0 hne hc hT hx0, ← Real.norm_eq_abs (∫ y in T..x, _)]
    refine norm_integral_le_of_norm_le_const (fun y hy => ?_)
    exact hb y (lt_of_le_of_lt (near hδ' hx (uIoc_subset_uIcc hy)).1 hx)
  · refine lipschitz_cont (M := M / (T / 2)) hδ (fun x hx => ?_)
    have hx0 : 0 < x := by have := (abs_lt.1 hx).1; linarith
    rw [sOf_diff h0 hne hc hT hx0, ← Real.norm_eq_abs (∫ y in T..x, _)]
    refine norm_integral_le_of_norm_le_const (fun y hy => ?_)
    obtain ⟨n1, n2⟩ := near hδ' hx (uIoc_subset_uIcc hy)
    rw [Real.norm_eq_abs, abs_div, abs_of_pos (show 0 < y by linarith)]
    exact div_le_div₀ hM (hb y (lt_of_le_of_lt n1 hx)) (by linarith) n2

theorem surplus_cont (p : Phase) {t : ℝ} (f : ℝ → ℝ) (hf : ∀ T, 0 < T → ContinuousAt f T) (h0 : f t = 0) (ht : 0 < t) {T : ℝ} (hT : 0 < T) :
    ContinuousAt (fun T => surplus p t (f T) T) T := by
  unfold surplus
  exact glue_continuous (f := fun _ => 0) (g := fun T => p.CpMag t * f T) ht (fun _ _ => continuousAt_const) (fun x hx => continuousAt_const.mul (hf x hx))
    (fun x _ => rfl) (by simp [h0]) hT

theorem top_gt {T0 : ℝ} {l : List (ℝ × CpRecord)} (hc : Contiguous T0 l) : T0 ≤ top T0 l := by
  unfold top
  cases hl : l.getLast? with
  | none => simp
  | some r =>
    have hm := List.mem_of_getLast? hl
    have := contiguous_gt hc r hm
    have key : ∀ (a : ℝ) (l : List (ℝ × CpRecord)), Contiguous a l → ∀ r ∈ l, r.1 = r.2.Tmax := by
      intro a l; induction l generalizing a with
      | nil => simp
      | cons s l ih => intro hc r hr; rcases List.mem_cons.1 hr with rfl | hr; exacts [hc.1, ih _ hc.2.2.2 r hr]
    simp only [Option.map_some, Option.getD_some]
    rw [← key _ _ hc r hm]; exact this.le

/-- **C72.** Enthalpy, entropy and Gibbs energy are continuous at every positive temperature: no jump at record boundaries, at the upper end of the
data, or at the critical temperature of a magnetic phase. -/
theorem C72_continuous (p : Phase) (T0 : ℝ) (l : List (ℝ × CpRecord)) (h : Covers p T0 l) (hm : PhaseMagOK p) (H S G : ℝ → ℝ)
    (hH : ∀ T, 0 < T → p.H T = .ok (H T)) (hS : ∀ T, 0 < T → p.S T = .ok (S T)) (hG : ∀ T, 0 < T → p.G T = .ok (G T)) (T : ℝ) (hT : 0 < T) :
    ContinuousAt H T ∧ ContinuousAt S T ∧ ContinuousAt G T := by
  have ht : 0 < top T0 l := lt_of_lt_of_le h.pos (top_gt h.contiguous)
  obtain ⟨c1, c2⟩ := hOf_cont h.pos h.ne h.contiguous hT
  have a : ContinuousAt H T := by
    have e : H =ᶠ[nhds T] fun T => p.DHref + hOf l T + p.HMag T + surplus p (top T0 l) (T - top T0 l) T := by
      filter_upwards [Ioi_mem_nhds hT] with x hx
      have := hH x hx
      rw [phase_H h] at this
      exact (Except.ok.inj this).symm
    refine ContinuousAt.congr ?_ e.symm
    exact ((continuousAt_const.add c1).add (HMag_cont hm hT)).add (surplus_cont p (fun T => T - top T0 l) (fun x _ => by fun_prop) (by simp) ht hT)
  have b : ContinuousAt S T := by
    have e : S =ᶠ[nhds T] fun T => p.Sref + sOf l T + p.SMag T + surplus p (top T0 l) (Real.log (T / top T0 l)) T := by
      filter_upwards [Ioi_mem_nhds hT] with x hx
      have := hS x hx
      rw [phase_S h] at this
      exact (Except.ok.inj this).symm
    refine ContinuousAt.congr ?_ e.symm
    refine ((continuousAt_const.add c2).add (SMag_cont hm hT)).add (surplus_cont p (fun T => Real.log (T / top T0 l)) (fun x hx => ?_) (by simp [div_self ht.ne']) ht hT)
    exact (continuousAt_id.div_const _).log (by positivity)
  refine ⟨a, b, ?_⟩
  have e : G =ᶠ[nhds T] fun T => H T - T * S T := by
    filter_upwards [Ioi_mem_nhds hT] with x hx
    have := hG x hx
    rw [C71_gibbs p x _ _ (hH x hx) (hS x hx)] at this
    exact (Except.ok.inj this).symm
  exact ContinuousAt.congr (a.sub (continuousAt_id.mul b)) e.symm

example : ∃ H S G : ℝ → ℝ, ∀ T, sampleM.H T = .ok (H T) ∧ sampleM.S T = .ok (S T) ∧ sampleM.G T = .ok (G T) :=
  ⟨_, _, _, fun T => ⟨phase_H sampleM_covers T, phase_S sampleM_covers T, C71_gibbs _ _ _ _ (phase_H sampleM_covers T) (phase_S sampleM_covers T)⟩⟩

/-! ## C73: linear in mass -/

theorem C73_linear_of (f : Phase → ℝ → Res ℝ) (db : List (Str × Compound)) (s : Str) (T : ℝ) :
    (∃ u, ∀ m, evaluate f db s T m = .ok (u * m)) ∨ ∃ e, ∀ m, evaluate f db s T m = .error e := by
  unfold evaluate
  cases splitCompound s with
  | error e => exact Or.inr ⟨e, fun _ => rfl⟩
  | ok fp =>
    obtain ⟨formula, phase⟩ := fp
    dsimp only
    cases db.lookup formula with
    | none => exact Or.inr ⟨_, fun _ => rfl⟩
    | some c =>
      dsimp only
      cases c.prop f phase (T + 273.15) with
      | error e => exact Or.inr ⟨e, fun _ => rfl⟩
      | ok v =>
        dsimp only [finalise]
        by_cases h : c.molarMass = 0
        · exact Or.inr ⟨.zeroDivisionError, fun _ => by rw [if_pos h]⟩
        · exact Or.inl ⟨v / 3600000 / c.molarMass, fun m => by rw [if_neg h]⟩

/-- **C73.** For each compound text and temperature the four functions are proportional to the mass (hence additive in it), or fail for every mass. -/
theorem C73_linear (db : List (Str × Compound)) (s : Str) (T : ℝ) :
    ∀ f ∈ [Cp db, H db, S db, G db], (∃ u, ∀ m, f s T m = .ok (u * m)) ∨ ∃ e, ∀ m, f s T m = .error e := by
  intro f hf
  simp only [List.mem_cons, List.not_mem_nil, or_false] at hf
  rcases hf with rfl | rfl | rfl | rfl <;> exact C73_linear_of _ db s T

/-- **C73 (Gibbs).** At the level of compound texts, degrees Celsius and kilowatt hours: `G = H - (T + 273.15)·S`. -/
theorem C73_gibbs (db : List (Str × Compound)) (s : Str) (T m h e : ℝ) (hh : H db s T m = .ok h) (he : S db s T m = .ok e) :
    G db s T m = .ok (h - (T + 273.15) * e) := by
  unfold H S G evaluate at *
  cases hs : splitCompound s with
  | error e => rw [hs] at hh; cases hh
  | ok fp =>
    obtain ⟨formula, phase⟩ := fp
    rw [hs] at hh he
    dsimp only at hh he ⊢
    cases hd : db.lookup formula with
    | none => rw [hd] at hh; cases hh
    | some c =>
      rw [hd] at hh he
      dsimp only [Compound.prop] at hh he ⊢
      cases hp : c.phases.lookup phase with
      | none => rw [hp] at hh; cases hh
      | some p =>
        rw [hp] at hh he
        dsimp only at hh he ⊢
        cases hH : p.H (T + 273.15) with
        | error e => rw [hH] at hh; cases hh
        | ok x =>
          cases hS : p.S (T + 273.15) with
          | error e => rw [hS] at he; cases he
          | ok y =>
            rw [hH] at hh
            rw [hS] at he
            rw [C71_gibbs p _ x y hH hS]
            dsimp only [finalise] at hh he ⊢
            split at hh
            · cases hh
            · rename_i hne
              rw [if_neg hne] at he ⊢
              cases hh; cases he
              congr 1; ring

theorem splitBracket_plain {s : Str} (h : '[' ∉ s) : splitBracket s = [s] := by
  induction s with
  | nil => rfl
  | cons c s ih =>
    simp only [List.mem_cons, not_or] at h
    unfold splitBracket
    rw [if_neg (fun e => h.1 e.symm), ih h.2]

theorem splitBracket_append {s t : Str} (h : '[' ∉ s) : splitBracket (s ++ '[' :: t) = s :: splitBracket t := by
  induction s with
  | nil => simp [splitBracket]
  | cons c s ih =>
    simp only [List.mem_cons, not_or] at h
    rw [List.cons_append, splitBracket, if_neg (fun e => h.1 e.symm), ih h.2]

/-- **C73 (compound texts).** `formula[phase]` denotes the phase of the compound filed under the formula. -/
theorem C73_text (formula phase : Str) (h1 : '[' ∉ formula) (h2 : ']' ∉ formula) (h3 : '[' ∉ phase) (h4 : ']' ∉ phase) :
    splitCompound (formula ++ '[' :: phase ++ [']']) = .ok (formula, phase) := by
  unfold splitCompound
  have hf : ∀ {s : Str}, ']' ∉ s → s.filter (fun c => decide (c ≠ ']')) = s := by
    intro s hs
    rw [List.filter_eq_self]
    intro a ha
    simpa using fun e : a = ']' => hs (e ▸ ha)
  have : (formula ++ '[' :: phase ++ [']']).filter (fun c => decide (c ≠ ']')) = formula ++ '[' :: phase := by
    simp only [List.filter_append, List.filter_cons]
    rw [hf h2, hf h4]
    simp
  rw [this, splitBracket_append h1, splitBracket_plain h3]

example : splitCompound "Fe2O3[S1]".toList = .ok ("Fe2O3".toList, "S1".toList) := by decide +kernel

/-! ## C74: magnetic contributions -/

/-- **C74.** The magnetic terms are thermodynamically consistent: `G = H - T·S` everywhere, `dH/dT = Cp` and `dS/dT = Cp/T` at every temperature other
than the critical one, and enthalpy, entropy and Gibbs energy continuous there. -/
theorem C74_magnetic (m : Mag) (h : MagOK m) (T : ℝ) (hT : 0 < T) :
    m.G T = m.H T - T * m.S T ∧ (T ≠ m.Tc → HasDerivAt m.H (m.Cp T) T ∧ HasDerivAt m.S (m.Cp T / T) T) ∧
    ContinuousAt m.H T ∧ ContinuousAt m.S T ∧ ContinuousAt m.G T := by
  have cH : ContinuousAt m.H T := glue_continuous h.Tc (fun x _ => (m.hLo_deriv h x).continuousAt) (fun x hx => (m.hHi_deriv h hx).continuousAt)
    (fun x hx => m.H_eq h hx) (m.h_join h) hT
  have cS : ContinuousAt m.S T := glue_continuous h.Tc (fun x hx => (m.sLo_deriv h hx).continuousAt) (fun x hx => (m.sHi_deriv h hx).continuousAt)
    (fun x hx => m.S_eq h x) (m.s_join h) hT
  refine ⟨m.G_eq T, fun hne => ⟨?_, ?_⟩, cH, cS, ?_⟩
  · have := glue_deriv (fun x _ => m.hLo_deriv h x) (fun x hx => m.hHi_deriv h hx) (fun x hx => m.H_eq h hx) hT hne
    rw [m.Cp_eq h T]; exact this
  · have := glue_deriv (fun x hx => m.sLo_deriv h hx) (fun x hx => m.sHi_deriv h hx) (fun x _ => m.S_eq h x) hT hne
    refine this.congr_deriv ?_
    rw [m.Cp_eq h T]; split <;> rfl
  · have : m.G = fun T => m.H T - T * m.S T := funext m.G_eq
    rw [this]
    exact cH.sub (continuousAt_id.mul cS)

example : MagOK ironMag ∧ (0 : ℝ) < 1200 ∧ (1200 : ℝ) ≠ ironMag.Tc := ⟨ironMag_ok, by norm_num, by norm_num [ironMag]⟩

/-! ## C75: extrapolation of magnetic phases -/

/-- **C75 is false of the code.** Above the data the enthalpy of a magnetic phase exceeds the integral of its heat capacity, because the magnetic heat
capacity at the upper limit is extrapolated and the magnetic enthalpy is added as well. -/
theorem C75_overestimates (p : Phase) (T0 : ℝ) (l : List (ℝ × CpRecord)) (h : Covers p T0 l) (m : Mag) (hm : p.mag = some m) (ok : MagOK m)
    (cp : ℝ → ℝ) (hcp : IsCp p cp) (T : ℝ) (hT : top T0 l < T) :
    ∃ H₁ H₂, p.H (top T0 l) = .ok H₁ ∧ p.H T = .ok H₂ ∧ H₂ - H₁ = (∫ x in (top T0 l)..T, cp x) + m.Cp (top T0 l) * (T - top T0 l) := by
  have ht : 0 < top T0 l := lt_of_lt_of_le h.pos (top_gt h.contiguous)
  have hmo : PhaseMagOK p := fun m' h' => by rw [hm] at h'; cases h'; exact ok
  refine ⟨_, _, phase_H h _, phase_H h T, ?_⟩
  rw [cp_integral h hmo hcp ht (ht.trans hT), surplus_none (Or.inr le_rfl)]
  unfold surplus
  rw [if_neg hT.not_ge]
  simp only [Phase.CpMag, hm]
  ring

theorem Cp_mag_pos (m : Mag) (ok : MagOK m) (hb : 0 < m.beta0) {T : ℝ} (hT : m.Tc < T) : 0 < m.Cp T := by
  rw [m.Cp_eq ok, if_neg hT.not_ge]
  have hT0 : 0 < T := ok.Tc.trans hT
  have hD := ok.D_pos
  have hc := ok.Tc
  have hk : 0 < m.k := mul_pos (by norm_num [R]) (Real.log_pos (by linarith))
  unfold Mag.cpHi
  positivity

/-- **C75 counterexample.** A phase, and a temperature above its data, for which the enthalpy difference is not the integral of the heat capacity. -/
theorem C75_counterexample : ∃ (p : Phase) (T0 : ℝ) (l : List (ℝ × CpRecord)) (cp : ℝ → ℝ) (H₁ H₂ : ℝ), Covers p T0 l ∧ PhaseMagOK p ∧ IsCp p cp ∧
    p.H 2000 = .ok H₁ ∧ p.H 2500 = .ok H₂ ∧ H₂ - H₁ ≠ ∫ x in (2000 : ℝ)..2500, cp x := by
  have ht : top 298.15 [(1000, rec1), (2000, rec2)] = 2000 := by simp [top, rec2]
  obtain ⟨H₁, H₂, h1, h2, h3⟩ := C75_overestimates sampleM 298.15 _ sampleM_covers ironMag rfl ironMag_ok _ (fun T _ => phase_Cp sampleM_covers T) 2500
    (by rw [ht]; norm_num)
  rw [ht] at h1 h3
  refine ⟨sampleM, 298.15, _, _, H₁, H₂, sampleM_covers, sampleM_ok, fun T _ => phase_Cp sampleM_covers T, h1, h2, ?_⟩
  rw [h3]
  have := Cp_mag_pos ironMag ironMag_ok (by norm_num [ironMag]) (T := 2000) (by norm_num [ironMag])
  intro e
  have h5 : ironMag.Cp 2000 * (2500 - 2000) = 0 := by
    have := congrArg (fun z => z - ∫ x in (2000 : ℝ)..2500, cpOf [(1000, rec1), (2000, rec2)] x + sampleM.CpMag x) e
    simpa using this
  nlinarith

/-! ## C76: the reference state -/

/-- **C76.** At the temperature where the data begin, enthalpy and entropy are the reference values (plus the magnetic terms, if any). -/
theorem C76_reference (p : Phase) (T0 : ℝ) (l : List (ℝ × CpRecord)) (h : Covers p T0 l) :
    p.H T0 = .ok (p.DHref + p.HMag T0) ∧ p.S T0 = .ok (p.Sref + p.SMag T0) ∧
    (p.mag = none → p.H T0 = .ok p.DHref ∧ p.S T0 = .ok p.Sref) := by
  have h1 : p.H T0 = .ok (p.DHref + p.HMag T0) := by
    rw [phase_H h, surplus_none (Or.inr (top_gt h.contiguous)), hOf_start h.pos h.ne h.contiguous]; simp
  have h2 : p.S T0 = .ok (p.Sref + p.SMag T0) := by
    rw [phase_S h, surplus_none (Or.inr (top_gt h.contiguous)), sOf_start h.pos h.ne h.contiguous]; simp
  refine ⟨h1, h2, fun hm => ?_⟩
  rw [h1, h2]
  simp [Phase.HMag, Phase.SMag, hm]

/-- **C76 (25 °C).** For a compound whose data begin at 298.15 K, one kilogram at 25 °C has the formation enthalpy, in kWh. -/
theorem C76_formation (db : List (Str × Compound)) (formula phase : Str) (h1 : '[' ∉ formula) (h2 : ']' ∉ formula) (h3 : '[' ∉ phase) (h4 : ']' ∉ phase)
    (c : Compound) (p : Phase) (hc : db.lookup formula = some c) (hp : c.phases.lookup phase = some p) (hM : c.molarMass ≠ 0)
    (l : List (ℝ × CpRecord)) (h : Covers p 298.15 l) (hm : p.mag = none) (mass : ℝ) :
    H db (formula ++ '[' :: phase ++ [']']) 25 mass = .ok (p.DHref / 3600000 / c.molarMass * mass) := by
  unfold H evaluate
  rw [C73_text _ _ h1 h2 h3 h4]
  dsimp only
  rw [hc]
  dsimp only [Compound.prop]
  rw [hp]
  dsimp only
  rw [show (25 : ℝ) + 273.15 = 298.15 by norm_num, ((C76_reference p 298.15 l h).2.2 hm).1]
  dsimp only [finalise]
  rw [if_neg hM]

example : sampleP.H 298.15 = .ok (-800000) := ((C76_reference sampleP 298.15 _ sampleP_covers).2.2 rfl).1

/-! ## C77: magnetic data in dictionaries -/

/-- **C77 is false of the code.** A phase cannot be built from a dictionary with magnetic data: the constructor raises. -/
theorem C77_magnetic_dict_raises (d : PhaseDict) (m : Mag) (h : d.magnetic = some m) : Phase.ofDict d = .error .typeError := by
  unfold Phase.ofDict; rw [h]

/-- **C77 (partial).** Without magnetic data it is built with the given values. -/
theorem C77_plain_partial (d : PhaseDict) (h : d.magnetic = none) :
    ∃ p, Phase.ofDict d = .ok p ∧ p.DHref = d.DHref ∧ p.Sref = d.Sref ∧ p.records = d.records ∧ p.mag = none := by
  unfold Phase.ofDict; rw [h]; exact ⟨_, rfl, rfl, rfl, rfl, rfl⟩

/-! ## C78: the slope of the Gibbs energy -/

theorem CpMag_locally {p : Phase} (h : PhaseMagOK p) {T : ℝ} (hT : 0 < T) : ∃ M, 0 ≤ M ∧ ∃ δ > 0, δ ≤ T / 2 ∧ ∀ x, |x - T| < δ → |p.CpMag x| ≤ M := by
  cases hm : p.mag with
  | none => exact ⟨0, le_rfl, T / 2, by positivity, le_rfl, fun x _ => by simp [Phase.CpMag, hm]⟩
  | some m =>
    have ok := h m hm
    have hc : ContinuousAt (fun x => |m.cpLo x| + |m.cpHi x|) T :=
      (m.cpLo_cont.continuousAt.abs).add (((m.cpHi_cont ok).continuousAt (Ioi_mem_nhds hT)).abs)
    have : ∀ᶠ x in nhds T, |m.cpLo x| + |m.cpHi x| < |m.cpLo T| + |m.cpHi T| + 1 := hc.eventually_lt continuousAt_const (by linarith)
    obtain ⟨δ, hδ, hb⟩ := Metric.eventually_nhds_iff.1 this
    refine ⟨|m.cpLo T| + |m.cpHi T| + 1, by positivity, min δ (T / 2), by positivity, min_le_right _ _, fun x hx => ?_⟩
    have := hb (y := x) (by rw [Real.dist_eq]; exact lt_of_lt_of_le hx (min_le_left _ _))
    simp only [Phase.CpMag, hm]
    rw [m.Cp_eq ok]
    split <;> linarith [abs_nonneg (m.cpLo x), abs_nonneg (m.cpHi x)]

/-- **C78.** The Gibbs energy is differentiable at every positive temperature, record boundaries and the critical temperature included, with derivative
minus the entropy (for magnetic phases: below the upper end of the data). -/
theorem C78_gibbs_slope (p : Phase) (T0 : ℝ) (l : List (ℝ × CpRecord)) (h : Covers p T0 l) (hm : PhaseMagOK p) (G : ℝ → ℝ)
    (hG : ∀ T, 0 < T → p.G T = .ok (G T)) (T S : ℝ) (hT : 0 < T) (hS : p.S T = .ok S) (hr : p.mag = none ∨ T < top T0 l) : HasDerivAt G (-S) T := by
  have hcp : IsCp p (fun T => cpOf l T + p.CpMag T) := fun T _ => phase_Cp h T
  obtain ⟨M1, hM1, δ1, hδ1, hδ1', hb1⟩ := cpOf_locally l hT
  obtain ⟨M2, hM2, δ2, hδ2, hδ2', hb2⟩ := CpMag_locally hm hT
  have hev : ∀ᶠ x in nhds T, |x - T| < δ1 ∧ |x - T| < δ2 ∧ (p.mag = none ∨ x ≤ top T0 l) := by
    have e1 : ∀ δ : ℝ, 0 < δ → ∀ᶠ x in nhds T, |x - T| < δ := fun δ hδ => by
      filter_upwards [Metric.ball_mem_nhds T hδ] with x hx; rwa [Metric.mem_ball, Real.dist_eq] at hx
    have e3 : ∀ᶠ x in nhds T, (p.mag = none ∨ x ≤ top T0 l) := by
      rcases hr with hr | hr
      · exact Filter.Eventually.of_forall (fun _ => Or.inl hr)
      · filter_upwards [Iio_mem_nhds hr] with x hx using Or.inr (le_of_lt hx)
    filter_upwards [e1 δ1 hδ1, e1 δ2 hδ2, e3] with x a b c using ⟨a, b, c⟩
  rw [hasDerivAt_iff_isLittleO]
  have key : (fun x => G x - G T - (x - T) • (-S)) =O[nhds T] fun x => ‖x - T‖ ^ 2 := by
    refine Asymptotics.IsBigO.of_bound ((M1 + M2) / (T / 2)) ?_
    filter_upwards [hev] with x hx
    obtain ⟨x1, x2, x3⟩ := hx
    have hx0 : 0 < x := by have := (abs_lt.1 x1).1; linarith
    obtain ⟨H₁, H₂, a1, a2, a3⟩ := C70_enthalpy p T0 l h hm _ hcp T x hT hx0 (by rcases hr with hr | hr; exacts [Or.inl hr, x3.imp id (fun h => ⟨hr.le, h⟩)])
    obtain ⟨S₁, S₂, b1, b2, b3⟩ := C70_entropy p T0 l h hm _ hcp T x hT hx0 (by rcases hr with hr | hr; exacts [Or.inl hr, x3.imp id (fun h => ⟨hr.le, h⟩)])
    rw [hS] at b1
    cases b1
    have g1 := C71_gibbs p T _ _ a1 hS
    have g2 := C71_gibbs p x _ _ a2 b2
    rw [hG T hT] at g1
    rw [hG x hx0] at g2
    rw [Except.ok.inj g1, Except.ok.inj g2]
    have i1 : IntervalIntegrable (fun t => cpOf l t + p.CpMag t) volume T x := (cpOf_integrable l hT hx0).add (CpMag_integral hm hT hx0).1
    have i2 : IntervalIntegrable (fun t => (cpOf l t + p.CpMag t) / t) volume T x :=
      ((cpTOf_integrable l hT hx0).add (CpTMag_integral hm hT hx0).1).congr (fun t _ => by simp [add_div])
    have e : H₂ - x * S₂ - (H₁ - T * S) - (x - T) • (-S) = ∫ t in T..x, (cpOf l t + p.CpMag t) * (1 - x / t) := by
      have : (∫ t in T..x, (cpOf l t + p.CpMag t) * (1 - x / t)) = ∫ t in T..x, ((cpOf l t + p.CpMag t) - x * ((cpOf l t + p.CpMag t) / t)) :=
        intervalIntegral.integral_congr (fun t _ => by ring)
      rw [this, intervalIntegral.integral_sub i1 (i2.const_mul x), intervalIntegral.integral_const_mul, ← a3, ← b3, smul_eq_mul]
      ring
    rw [e]
    have := norm_integral_le_of_norm_le_const (a := T) (b := x) (f := fun t => (cpOf l t + p.CpMag t) * (1 - x / t)) (C := (M1 + M2) / (T / 2) * |x - T|) (fun t ht => by
      obtain ⟨n1, n2⟩ := near hδ1' x1 (uIoc_subset_uIcc ht)
      have ht0 : 0 < t := by linarith
      have q1 : |cpOf l t + p.CpMag t| ≤ M1 + M2 :=
        (abs_add_le _ _).trans (add_le_add (hb1 t (lt_of_le_of_lt n1 x1)) (hb2 t (lt_of_le_of_lt n1 x2)))
      have q2 : |1 - x / t| ≤ |x - T| / (T / 2) := by
        have : 1 - x / t = (t - x) / t := by field_simp
        rw [this, abs_div, abs_of_pos ht0]
        refine div_le_div₀ (abs_nonneg _) ?_ (by linarith) n2
        rcases mem_uIoc.1 ht with h | h
        · rw [abs_of_nonpos (by linarith), abs_of_nonneg (by linarith)]; linarith
        · rw [abs_of_nonneg (by linarith), abs_of_nonpos (by linarith)]; linarith
      rw [norm_mul, Real.norm_eq_abs, Real.norm_eq_abs]
      calc |cpOf l t + p.CpMag t| * |1 - x / t| ≤ (M1 + M2) * (|x - T| / (T / 2)) := mul_le_mul q1 q2 (abs_nonneg _) (by linarith)
        _ = (M1 + M2) / (T / 2) * |x - T| := by ring)
    refine this.trans (le_of_eq ?_)
    rw [norm_pow, norm_norm, Real.norm_eq_abs]
    ring
  exact key.trans_isLittleO (Asymptotics.isLittleO_pow_sub_sub T one_lt_two)

example : (0 : ℝ) < 1000 ∧ (1000 : ℝ) < top 298.15 [(1000, rec1), (2000, rec2)] := by
  constructor
  · norm_num
  · rw [show top 298.15 [(1000, rec1), (2000, rec2)] = 2000 by simp [top, rec2]]; norm_num

end Auxi.ThermoChem.Props
