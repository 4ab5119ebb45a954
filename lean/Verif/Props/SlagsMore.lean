import Verif.Props.Slags
import Mathlib.Analysis.SpecialFunctions.Log.Basic
import Mathlib.Tactic.NormNum.DivMod

/-!
# Properties C84 (when Riboud's model is defined, order of entries) and C94 (viscosity falls as temperature rises)
-/
namespace Auxi.Phys.Props
open Auxi Auxi.Phys
open Auxi.Stoich (CDict)
open Classical

/-! ## C84 -/

/-- The oxides of Riboud's model, those with two cations by their single-cation names. -/
def riboudOxides : List String := ["SiO2", "TiO2", "ZrO2", "CaO", "MgO", "FeO", "MnO", "Al2O3", "CaF2", "Na2O", "K2O"]

theorem riboudDict_nonneg {x : CDict} (h : ∀ e ∈ x, 0 ≤ e.2) (c : String) : 0 ≤ get (riboudDict x) c := by
  have h' : ∀ k v, x.lookup k = some v → 0 ≤ v := fun k v hv => h _ (mem_of_lookup hv)
  have e : ∀ o : Option ℚ, (∀ v, o = some v → 0 ≤ v) → 0 ≤ o.getD 0 := by
    intro o ho; cases o with
    | none => simp
    | some v => simpa using ho v rfl
  unfold get
  refine e _ fun v hv => ?_
  rw [lookup_riboudDict] at hv
  have e2 : ∀ k : Str, (x.lookup k).map (2 * ·) = some v → 0 ≤ v := by
    intro k hk
    cases hl : x.lookup k with
    | none => rw [hl] at hk; cases hk
    | some w => rw [hl] at hk; have := h' k w hl; cases hk; positivity
  split at hv
  · exact e2 _ hv
  · split at hv
    · exact e2 _ hv
    · split at hv
      · exact e2 _ hv
      · exact h' _ _ hv

theorem riboudDict_get {x : CDict} {c : String} (hc : c ∈ riboudOxides) : get (riboudDict x) c = get x c := by
  unfold get
  rw [lookup_riboudDict]
  simp only [riboudOxides, List.mem_cons, List.not_mem_nil, or_false] at hc
  rcases hc with rfl | rfl | rfl | rfl | rfl | rfl | rfl | rfl | rfl | rfl | rfl <;>
    rw [if_neg (by rintro ⟨h, -⟩; exact absurd h (by decide)), if_neg (by rintro ⟨h, -⟩; exact absurd h (by decide)),
      if_neg (by rintro ⟨h, -⟩; exact absurd h (by decide))]

theorem cAll_sub {c : String} (hc : c ∈ riboudOxides) : c ∈ cAll := by
  simp only [riboudOxides, List.mem_cons, List.not_mem_nil, or_false] at hc
  rcases hc with rfl | rfl | rfl | rfl | rfl | rfl | rfl | rfl | rfl | rfl | rfl <;> decide

theorem sumOf_pos {x : CDict} (h : ∀ c, 0 ≤ get x c) {cs : List String} {c : String} (hc : c ∈ cs) (hp : 0 < get x c) : 0 < sumOf x cs := by
  unfold sumOf
  refine lt_of_lt_of_le hp (List.single_le_sum (l := cs.map (get x)) ?_ _ (List.mem_map.2 ⟨c, hc, rfl⟩))
  intro a ha
  obtain ⟨c', -, rfl⟩ := List.mem_map.1 ha
  exact h c'

/-- **C84** (defined, Riboud): a value is returned for every temperature other than zero and every composition without negative entries that has some oxide of the
model. -/
theorem C84_riboud_defined {T : ℝ} (hT : T ≠ 0) {x : CDict} (h : ∀ e ∈ x, 0 ≤ e.2) {c : String} (hc : c ∈ riboudOxides) (hp : 0 < entry x c) :
    ∃ v, (riboudTx (tx T x)).1 = .ok v := by
  rw [← get_entry] at hp
  rw [riboudTx_eq]
  unfold riboud
  simp only
  rw [if_neg (sumOf_pos (riboudDict_nonneg h) (cAll_sub hc) (by rw [riboudDict_get hc]; exact hp)).ne', if_neg hT]
  exact ⟨_, rfl⟩

theorem lookup_perm {x y : CDict} (hp : x.Perm y) (hn : (x.map (·.1)).Nodup) (c : Str) : x.lookup c = y.lookup c := by
  have hn' : (y.map (·.1)).Nodup := (hp.map _).nodup_iff.1 hn
  cases hl : x.lookup c with
  | some v => exact (lookup_of_mem hn' (hp.mem_iff.1 (mem_of_lookup hl))).symm
  | none =>
    cases hl' : y.lookup c with
    | none => rfl
    | some v => rw [lookup_of_mem hn (hp.mem_iff.2 (mem_of_lookup hl'))] at hl; cases hl

/-- **C84** (order): the viscosity does not depend on the order in which the composition lists its oxides. -/
theorem C84_order (T : ℝ) {x y : CDict} (hp : x.Perm y) (hn : (x.map (·.1)).Nodup) :
    urbainTx (tx T x) = urbainTx (tx T y) ∧ (riboudTx (tx T x)).1 = (riboudTx (tx T y)).1 := by
  have hl := lookup_perm hp hn
  refine ⟨?_, ?_⟩
  · rw [urbainTx_eq, urbainTx_eq]
    have ht : total x = total y := by unfold total; exact (hp.map _).sum_eq
    have hz : (x ≠ [] ∧ total x = 0) ↔ (y ≠ [] ∧ total y = 0) := by
      rw [ht]; refine and_congr_left fun _ => not_congr ⟨fun h => ?_, fun h => ?_⟩
      · subst h; exact hp.symm.eq_nil
      · subst h; exact hp.eq_nil
    have hg : ∀ c, get (scaled (1 / total x) x) c = get (scaled (1 / total y) y) c := by
      intro c; rw [get_scaled, get_scaled, ht]; unfold get; rw [hl]
    unfold urbain
    by_cases h : x ≠ [] ∧ total x = 0
    · rw [normAll_zero h, normAll_zero (hz.1 h)]
    · rw [normAll_ok h, normAll_ok (fun h' => h (hz.2 h'))]
      simp only
      have e1 : xm (scaled (1 / total x) x) = xm (scaled (1 / total y) y) := by unfold xm; simp only [hg]
      have e2 : xa (scaled (1 / total x) x) = xa (scaled (1 / total y) y) := by unfold xa; simp only [hg]
      have e3 : xg (scaled (1 / total x) x) = xg (scaled (1 / total y) y) := by unfold xg; simp only [hg]
      have e4 : norm (scaled (1 / total x) x) = norm (scaled (1 / total y) y) := by unfold norm; simp only [hg]
      rw [e1, e2, e3, e4]
  · rw [riboudTx_eq, riboudTx_eq]
    refine riboud_congr (fun c => ?_) T
    rw [lookup_riboudDict, lookup_riboudDict]
    simp only [hl]

/-! ## C94 -/

/-- `T exp(b/T)` falls as long as `T ≤ b`. -/
theorem arrhenius_falls {s t b : ℝ} (hs : 0 < s) (hst : s < t) (htb : t ≤ b) : t * Real.exp (b / t) < s * Real.exp (b / s) := by
  have ht : 0 < t := hs.trans hst
  have h1 : t < s * Real.exp (t / s - 1) := by
    have : t / s - 1 + 1 < Real.exp (t / s - 1) := Real.add_one_lt_exp (by
      rw [sub_ne_zero]; intro h; rw [div_eq_one_iff_eq hs.ne'] at h; exact absurd h hst.ne')
    rw [sub_add_cancel, div_lt_iff₀ hs] at this
    linarith
  have h2 : t / s - 1 + b / t ≤ b / s := by
    have h3 : b / s - b / t = b / t * (t / s - 1) := by field_simp
    have h4 : 1 ≤ b / t := by rw [le_div_iff₀ ht]; linarith
    have h5 : 0 < t / s - 1 := by rw [sub_pos, lt_div_iff₀ hs]; linarith
    nlinarith
  calc t * Real.exp (b / t) < s * Real.exp (t / s - 1) * Real.exp (b / t) := mul_lt_mul_of_pos_right h1 (Real.exp_pos _)
    _ = s * Real.exp (t / s - 1 + b / t) := by rw [Real.exp_add]; ring
    _ ≤ s * Real.exp (b / s) := mul_le_mul_of_nonneg_left (Real.exp_le_exp.2 h2) hs.le

/-- The activation energy of Urbain's model is at least 9.6865 for all category fractions. -/
theorem urbainB_ge {a g : ℚ} (ha : 0 ≤ a) (ha1 : a ≤ 1) (hg : 0 ≤ g) (hg1 : g ≤ 1) : 9.6865 ≤ urbainB a g := by
  have h0 : 0 ≤ (13.8 - 9.6865) + g * (30.481 - 40.9429 * g + 60.7619 * g ^ 2) := by
    have : 0 ≤ 30.481 - 40.9429 * g + 60.7619 * g ^ 2 := by nlinarith [sq_nonneg (g - 0.337)]
    nlinarith
  have h1 : 0 ≤ (33.76775 - 9.6865) - 28.09425 * g + 76.0994 * g ^ 2 - 16.2019 * g ^ 3 := by
    have : g ^ 3 ≤ g ^ 2 := by nlinarith [sq_nonneg g]
    nlinarith [sq_nonneg (g - 0.234)]
  have h2 : 0 ≤ g * (43.3283 - 106.8983 * g + 117.9959 * g ^ 2) := by
    have : 0 ≤ 43.3283 - 106.8983 * g + 117.9959 * g ^ 2 := by nlinarith [sq_nonneg (g - 0.453)]
    exact mul_nonneg hg this
  have key : urbainB a g - 9.6865 = (1 - a) ^ 2 * ((13.8 - 9.6865) + g * (30.481 - 40.9429 * g + 60.7619 * g ^ 2)) +
      2 * (a * (1 - a)) * ((33.76775 - 9.6865) - 28.09425 * g + 76.0994 * g ^ 2 - 16.2019 * g ^ 3) +
      a ^ 2 * (g * (43.3283 - 106.8983 * g + 117.9959 * g ^ 2)) := by
    unfold urbainB; ring
  have : 0 ≤ urbainB a g - 9.6865 := by
    rw [key]
    have h3 : 0 ≤ a * (1 - a) := mul_nonneg ha (by linarith)
    positivity
  linarith

/-- The sum of the entries of a dictionary with different names is at most the total. -/
theorem sumOf_le_total {x : CDict} (hn : (x.map (·.1)).Nodup) (h : ∀ e ∈ x, 0 ≤ e.2) (c d : String) (hcd : c.toList ≠ d.toList) : get x c + get x d ≤ total x := by
  induction x with
  | nil => simp [get, total]
  | cons e x ih =>
    obtain ⟨k, v⟩ := e
    rw [List.map_cons, List.nodup_cons] at hn
    have ih := ih hn.2 (fun e he => h e (List.mem_cons_of_mem _ he))
    have hv : 0 ≤ v := h (k, v) List.mem_cons_self
    have ht : total ((k, v) :: x) = v + total x := by simp [total]
    have hk : ∀ c : String, get ((k, v) :: x) c = if c.toList = k then v else get x c := by
      intro c
      unfold get
      rw [List.lookup_cons]
      by_cases hc : c.toList = k
      · rw [if_pos hc]; subst hc; simp
      · have : (c.toList == k) = false := by simpa using hc
        rw [this, if_neg hc]
    have h0 : ∀ c : String, c.toList = k → get x c = 0 := by
      intro c hc
      unfold get
      cases hl : x.lookup c.toList with
      | none => rfl
      | some w => exact absurd (List.mem_map.2 ⟨_, mem_of_lookup hl, hc⟩) hn.1
    rw [hk, hk, ht]
    by_cases h1 : c.toList = k
    · rw [if_pos h1, if_neg (fun h2 => hcd (h1.trans h2.symm))]
      rw [h0 c h1] at ih; linarith
    · rw [if_neg h1]
      by_cases h2 : d.toList = k
      · rw [if_pos h2]; rw [h0 d h2] at ih; linarith
      · rw [if_neg h2]; linarith

/-- **C94** (Urbain): for every composition without negative entries, the viscosity falls as the temperature rises, up to 9686 K. -/
theorem C94_urbain {x : CDict} (hn : (x.map (·.1)).Nodup) (h : ∀ e ∈ x, 0 ≤ e.2) {s t v w : ℝ} (hs : 0 < s) (hst : s < t) (ht : t ≤ 9686)
    (hv : urbainTx (tx s x) = .ok v) (hw : urbainTx (tx t x) = .ok w) : w < v := by
  rw [urbainTx_eq] at hv hw
  unfold urbain at hv hw
  by_cases hz : x ≠ [] ∧ total x = 0
  · rw [normAll_zero hz] at hv; cases hv
  rw [normAll_ok hz] at hv hw
  simp only at hv hw
  set y := scaled (1 / total x) x with hy
  by_cases h1 : norm y = 0
  · rw [if_pos h1] at hv; cases hv
  rw [if_neg h1] at hv hw
  by_cases h2 : xm y / norm y + xa y / norm y = 0
  · rw [if_pos h2] at hv; cases hv
  rw [if_neg h2] at hv hw
  rw [if_neg hs.ne'] at hv
  rw [if_neg (hs.trans hst).ne'] at hw
  have h0 : 0 ≤ total x := by
    unfold total
    refine List.sum_nonneg fun a ha => ?_
    obtain ⟨e, he, rfl⟩ := List.mem_map.1 ha
    exact h e he
  have hy0 : ∀ e ∈ y, 0 ≤ e.2 := scaled_nonneg (one_div_nonneg.2 h0) h
  have hg := entry_nonneg hy0
  have hn1 : 1 ≤ norm y := by
    have h5 := hg "CaF2"; have h8 := hg "TiO2"; have h9 := hg "ZrO2"; have h11 := hg "Fe2O3"
    unfold norm; linarith
  have hnp : 0 < norm y := by linarith
  have hm0 : 0 ≤ xm y / norm y := by
    refine div_nonneg ?_ hnp.le
    have h1 := hg "CaO"; have h2 := hg "MgO"; have h3 := hg "Na2O"; have h4 := hg "K2O"; have h5 := hg "CaF2"; have h6 := hg "FeO"; have h7 := hg "MnO"
    have h8 := hg "TiO2"; have h9 := hg "ZrO2"
    unfold xm; linarith
  have ha0 : 0 ≤ xa y / norm y := by
    refine div_nonneg ?_ hnp.le
    have h10 := hg "Al2O3"; have h11 := hg "Fe2O3"; have h12 := hg "B2O3"
    unfold xa; linarith
  have hma : 0 < xm y / norm y + xa y / norm y := lt_of_le_of_ne (add_nonneg hm0 ha0) (Ne.symm h2)
  have hx1 : xg y ≤ 1 := by
    have hyn : (y.map (·.1)).Nodup := by rw [hy]; unfold scaled; rw [List.map_map]; exact hn
    have h3 := sumOf_le_total hyn hy0 "SiO2" "P2O5" (by decide)
    have h4 : total y ≤ 1 := by
      rw [hy, total_scaled, one_div]
      by_cases h5 : total x = 0
      · rw [h5]; norm_num
      · rw [inv_mul_cancel₀ h5]
    unfold xg; linarith
  have hx0 : 0 ≤ xg y := add_nonneg (hg _) (hg _)
  have hB : 9.6865 ≤ urbainB (xm y / norm y / (xm y / norm y + xa y / norm y)) (xg y / norm y) := by
    refine urbainB_ge (div_nonneg hm0 hma.le) ?_ (div_nonneg hx0 hnp.le) ?_
    · rw [div_le_one hma]; linarith
    · rw [div_le_one hnp]; linarith
  generalize urbainB (xm y / norm y / (xm y / norm y + xa y / norm y)) (xg y / norm y) = B at hB hv hw
  have hB' : (9.6865 : ℝ) ≤ (B : ℝ) := by
    have : ((9.6865 : ℚ) : ℝ) ≤ (B : ℝ) := by exact_mod_cast hB
    norm_num at this ⊢; exact this
  have hf := arrhenius_falls (b := 1000 * (B : ℝ)) hs hst (by linarith)
  rw [← Except.ok.inj hv, ← Except.ok.inj hw]
  have hA := Real.exp_pos (-0.2693 * (B : ℝ) - 11.6725)
  have := mul_lt_mul_of_pos_left hf hA
  linarith

/-- **C94** (Riboud, partial): for every composition without negative entries and without fluorspar and alkalis, the viscosity falls as the temperature rises, up to
7244 K. Missing: compositions with fluorspar or alkalis, for which it can be false. -/
theorem C94_riboud_partial {x : CDict} (h : ∀ e ∈ x, 0 ≤ e.2) (hf : ∀ c ∈ ["CaF2", "Na2O", "K2O"], entry x c = 0) {s t v w : ℝ} (hs : 0 < s) (hst : s < t)
    (ht : t ≤ 7244) (hv : (riboudTx (tx s x)).1 = .ok v) (hw : (riboudTx (tx t x)).1 = .ok w) : w < v := by
  rw [riboudTx_eq] at hv hw
  unfold riboud at hv hw
  simp only at hv hw
  set d := riboudDict x with hd
  have hg : ∀ c, 0 ≤ get d c := riboudDict_nonneg h
  by_cases hz : sumOf d cAll = 0
  · rw [if_pos hz] at hv; cases hv
  rw [if_neg hz] at hv hw
  rw [if_neg hs.ne'] at hv
  rw [if_neg (hs.trans hst).ne'] at hw
  have hpos : ∀ cs : List String, 0 ≤ sumOf d cs := by
    intro cs
    unfold sumOf
    refine List.sum_nonneg fun a ha => ?_
    obtain ⟨c', -, rfl⟩ := List.mem_map.1 ha
    exact hg c'
  have e4 : sumOf d ["CaF2"] = 0 := by
    have : get d "CaF2" = 0 := by rw [hd, riboudDict_get (by decide), get_entry]; exact hf _ (by decide)
    simp [sumOf, this]
  have e5 : sumOf d ["Na2O", "K2O"] = 0 := by
    have h1 : get d "Na2O" = 0 := by rw [hd, riboudDict_get (by decide), get_entry]; exact hf _ (by decide)
    have h2 : get d "K2O" = 0 := by rw [hd, riboudDict_get (by decide), get_entry]; exact hf _ (by decide)
    simp [sumOf, h1, h2]
  have hall : sumOf d cAll = sumOf d cSiO2 + sumOf d cCaO + sumOf d ["Al2O3"] + sumOf d ["CaF2"] + sumOf d ["Na2O", "K2O"] := by
    unfold cAll sumOf; simp only [List.map_append, List.sum_append]
  have ht0 : 0 < sumOf d cAll := lt_of_le_of_ne (hpos _) (Ne.symm hz)
  have h2 : sumOf d cCaO / sumOf d cAll ≤ 1 := by
    rw [div_le_one ht0, hall]
    have := hpos cSiO2; have := hpos ["Al2O3"]; have := hpos ["CaF2"]; have := hpos ["Na2O", "K2O"]; linarith
  have h3 : 0 ≤ sumOf d ["Al2O3"] / sumOf d cAll := div_nonneg (hpos _) ht0.le
  have hB : (7244 : ℝ) ≤ 31140 - 23896 * ((sumOf d cCaO / sumOf d cAll : ℚ) : ℝ) - 46356 * ((sumOf d ["CaF2"] / sumOf d cAll : ℚ) : ℝ) -
      39159 * ((sumOf d ["Na2O", "K2O"] / sumOf d cAll : ℚ) : ℝ) + 68833 * ((sumOf d ["Al2O3"] / sumOf d cAll : ℚ) : ℝ) := by
    rw [e4, e5]
    have h2' : ((sumOf d cCaO / sumOf d cAll : ℚ) : ℝ) ≤ 1 := by exact_mod_cast h2
    have h3' : (0:ℝ) ≤ ((sumOf d ["Al2O3"] / sumOf d cAll : ℚ) : ℝ) := by exact_mod_cast h3
    have h4' : ((0 / sumOf d cAll : ℚ) : ℝ) = 0 := by simp
    rw [h4']; linarith
  revert hB hv hw
  generalize (31140 - 23896 * ((sumOf d cCaO / sumOf d cAll : ℚ) : ℝ) - 46356 * ((sumOf d ["CaF2"] / sumOf d cAll : ℚ) : ℝ) -
      39159 * ((sumOf d ["Na2O", "K2O"] / sumOf d cAll : ℚ) : ℝ) + 68833 * ((sumOf d ["Al2O3"] / sumOf d cAll : ℚ) : ℝ)) = B
  generalize (-17.51 + 1.73 * ((sumOf d cCaO / sumOf d cAll : ℚ) : ℝ) + 5.82 * ((sumOf d ["CaF2"] / sumOf d cAll : ℚ) : ℝ) +
      7.02 * ((sumOf d ["Na2O", "K2O"] / sumOf d cAll : ℚ) : ℝ) - 33.76 * ((sumOf d ["Al2O3"] / sumOf d cAll : ℚ) : ℝ)) = A
  intro hv hw hB
  have hfa := arrhenius_falls (b := B) hs hst (by linarith)
  rw [← Except.ok.inj hv, ← Except.ok.inj hw]
  have := mul_lt_mul_of_pos_left hfa (Real.exp_pos A)
  linarith

/-- **C94** (negative, Riboud): the viscosity of pure fluorspar rises with temperature. -/
theorem C94_riboud_violated : ∃ v w, (riboudTx (tx 1500 [("CaF2".toList, 1)])).1 = .ok v ∧ (riboudTx (tx 1600 [("CaF2".toList, 1)])).1 = .ok w ∧ v < w := by
  have hd : riboudDict [("CaF2".toList, 1)] = [("CaF2".toList, 1)] := by decide +kernel
  have h1 : sumOf [("CaF2".toList, 1)] cAll = 1 := by decide +kernel
  have h2 : sumOf [("CaF2".toList, 1)] cCaO = 0 := by decide +kernel
  have h3 : sumOf [("CaF2".toList, 1)] ["Al2O3"] = 0 := by decide +kernel
  have h4 : sumOf [("CaF2".toList, 1)] ["CaF2"] = 1 := by decide +kernel
  have h5 : sumOf [("CaF2".toList, 1)] ["Na2O", "K2O"] = 0 := by decide +kernel
  have e : ∀ T : ℝ, T ≠ 0 → (riboudTx (tx T [("CaF2".toList, 1)])).1 = .ok (Real.exp (-11.69) * T * Real.exp (-15216 / T) / 10) := by
    intro T hT
    rw [riboudTx_eq]
    unfold riboud
    simp only [hd, h1, h2, h3, h4, h5]
    rw [if_neg (by norm_num), if_neg hT]
    norm_num
  refine ⟨_, _, e 1500 (by norm_num), e 1600 (by norm_num), ?_⟩
  have : Real.exp (-15216 / 1500) < Real.exp (-15216 / 1600) := Real.exp_lt_exp.2 (by norm_num)
  have hp := Real.exp_pos (-11.69)
  have hp2 := Real.exp_pos (-15216 / 1500)
  have h6 : (1500 : ℝ) * Real.exp (-15216 / 1500) < 1600 * Real.exp (-15216 / 1600) := by nlinarith
  have := mul_lt_mul_of_pos_left h6 hp
  linarith

/-- A slag meets the hypotheses, and both models give it a viscosity. -/
example : ∃ v w, urbainTx (tx 1700 [("SiO2".toList, 0.4), ("CaO".toList, 0.4), ("Al2O3".toList, 0.2)]) = .ok v ∧
    (riboudTx (tx 1700 [("SiO2".toList, 0.4), ("CaO".toList, 0.4), ("Al2O3".toList, 0.2)])).1 = .ok w ∧ 0 < v ∧ 0 < w := by
  have h : ∀ e ∈ ([("SiO2".toList, 0.4), ("CaO".toList, 0.4), ("Al2O3".toList, 0.2)] : CDict), 0 ≤ e.2 := by
    intro e he
    simp only [List.mem_cons, List.not_mem_nil, or_false] at he
    rcases he with rfl | rfl | rfl <;> norm_num
  obtain ⟨v, hv⟩ := C84_urbain_defined (T := 1700) (by norm_num) h (c := "CaO") (by decide) (by decide +kernel)
  obtain ⟨w, hw⟩ := C84_riboud_defined (T := 1700) (by norm_num) h (c := "SiO2") (by decide) (by decide +kernel)
  exact ⟨v, w, hv, hw, C84_positive (Or.inl hv) (lookupT _ _) (by norm_num), C84_positive (Or.inr (Or.inl hw)) (lookupT _ _) (by norm_num)⟩

end Auxi.Phys.Props
