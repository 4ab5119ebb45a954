import Verif.Props.CoalStream
import Verif.Props.Coals
import Verif.Spec.CoalHeat

/-!
# The sums over a coal's compounds, element by element
-/
namespace Auxi.Thermo.Props
open Auxi Auxi.Thermo Auxi.Thermo.Spec
open Classical

theorem get_nonneg {d : Stoich.Counts} (h : ∀ e ∈ d, 0 ≤ e.2) (k : Str) : 0 ≤ d.get k := by
  unfold Stoich.Counts.get
  cases hl : d.lookup k with
  | none => simp
  | some q => exact h _ (Chem.emf_total.lookup_mem hl)

/-- A compound consists of one element at most. -/
theorem share_unique {c : Str} (h : Stoich.Spec.IsFormula c) {e e' : Str} (h1 : Chem.Spec.share c e = 1) (h2 : Chem.Spec.share c e' = 1) : e = e' := by
  obtain ⟨t, cp, _, _, k3, _, k5⟩ := Chem.emf_total h
  obtain ⟨v1, v2, v3, _⟩ := Stoich.visitTree_spec t cp k3
  simp only [Chem.Spec.share, k5] at h1 h2
  set W := Stoich.wsum Stoich.Spec.massOf cp.count with hW
  have hW0 : W ≠ 0 := by intro h0; rw [h0, div_zero] at h1; norm_num at h1
  rw [div_eq_one_iff_eq hW0] at h1 h2
  have hmem : ∀ k, cp.count.get k * Stoich.Spec.massOf k = W → k ∈ cp.count.map (·.1) := by
    intro k hk
    by_contra hn
    have : cp.count.lookup k = none := Stoich.Props.lookup_none hn
    rw [Stoich.Counts.get, this] at hk
    apply hW0
    rw [← hk]
    simp
  have hnn := get_nonneg (Stoich.Props.count_nonneg cp)
  have hterm : ∀ k ∈ cp.count.map (·.1), 0 ≤ cp.count.get k * Stoich.Spec.massOf k := fun k hk => mul_nonneg (hnn k) (Stoich.Props.massOf_pos (v3 _ ((v1 _).1 hk))).le
  have hsum := Chem.sum_get Stoich.Spec.massOf (cp.count.map (·.1)) v2 cp.count v2 (fun k hk => hk)
  by_contra hne
  have m1 := hmem e h1
  have m2 : e' ∈ (cp.count.map (·.1)).erase e := (List.mem_erase_of_ne (Ne.symm hne)).2 (hmem e' h2)
  have p1 := (List.perm_cons_erase m1).map (fun k => cp.count.get k * Stoich.Spec.massOf k)
  have p2 := (List.perm_cons_erase m2).map (fun k => cp.count.get k * Stoich.Spec.massOf k)
  have s1 := p1.sum_eq
  have s2 := p2.sum_eq
  simp only [List.map_cons, List.sum_cons] at s1 s2
  rw [hsum, s2, h1, h2] at s1
  have hrest : 0 ≤ ((((cp.count.map (·.1)).erase e).erase e').map (fun k => cp.count.get k * Stoich.Spec.massOf k)).sum := by
    apply List.sum_nonneg
    intro x hx
    rw [List.mem_map] at hx
    obtain ⟨k, hk, rfl⟩ := hx
    exact hterm k (List.mem_of_mem_erase (List.mem_of_mem_erase hk))
  have hWn : 0 ≤ W := h1 ▸ hterm e m1
  exact hW0 (le_antisymm (by rw [← hW] at s1; linarith) hWn)

theorem pureElement_share {c : Str} (h : Stoich.Spec.IsFormula c) (es : List Str) :
    ∃ o, pureElement (formulaOf c) es = .ok o ∧ ∀ i, o = some i → ∃ e, es[i]? = some e ∧ Chem.Spec.share c e = 1 := by
  induction es with
  | nil => exact ⟨none, rfl, by intro i h; cases h⟩
  | cons e es ih =>
    obtain ⟨o, h1, h2⟩ := ih
    unfold pureElement
    rw [fraction_formulaOf h, fraction_share h]
    dsimp only
    by_cases hx : Chem.Spec.share c e = 1
    · rw [if_pos hx]
      exact ⟨some 0, rfl, by intro i hi; cases hi; exact ⟨e, rfl, hx⟩⟩
    · rw [if_neg hx, h1]
      refine ⟨o.map (· + 1), rfl, ?_⟩
      intro i hi
      rw [Option.map_eq_some_iff] at hi
      obtain ⟨j, hj, rfl⟩ := hi
      obtain ⟨e', k1, k2⟩ := h2 j hj
      exact ⟨e', by simpa using k1, k2⟩

/-- A compound counts as element number `i` exactly if it consists of that element. -/
theorem kind_share {c : Str} (h : Stoich.Spec.IsFormula c) {i : ℕ} {e : Str} (he : coalElements[i]? = some e) : kind c = some i ↔ Chem.Spec.share c e = 1 := by
  obtain ⟨o, h1, h2⟩ := pureElement_share h coalElements
  have hk : kind c = o := by unfold kind; rw [h1]
  constructor
  · intro hi
    obtain ⟨e', k1, k2⟩ := h2 i (hk.symm.trans hi)
    rw [he] at k1
    rw [Option.some.inj k1]; exact k2
  · intro hs
    have hmem : e ∈ coalElements := List.mem_of_getElem? he
    have hsome := (kind_isSome h).2 ⟨e, hmem, hs⟩
    obtain ⟨j, hj⟩ := Option.isSome_iff_exists.1 hsome
    obtain ⟨e', k1, k2⟩ := h2 j (hk.symm.trans hj)
    obtain rfl := share_unique h hs k2
    have hnd : coalElements.Nodup := by decide
    have hi := List.getElem?_eq_some_iff.1 he
    have hj' := List.getElem?_eq_some_iff.1 k1
    obtain ⟨a1, a2⟩ := hi
    obtain ⟨b1, b2⟩ := hj'
    rw [hj]
    congr 1
    exact (List.Nodup.getElem_inj_iff hnd).1 (b2.trans a2.symm)

theorem pureFlow_eq {m : Material} (hf : ∀ c ∈ m.compounds, Stoich.Spec.IsFormula c) {ms : List ℝ} {g : Str → ℝ} (h : ms = m.compounds.map g) {i : ℕ} {e : Str} (he : coalElements[i]? = some e) :
    pureFlow m ms e = elemSum m.compounds g i := by
  unfold pureFlow elemSum
  rw [h, zip_map_self, List.map_map]
  refine congrArg List.sum (List.map_congr_left fun c hc => ?_)
  have := kind_share (hf c hc) he
  simp only [Function.comp]
  by_cases hs : Chem.Spec.share c e = 1
  · rw [if_pos hs, if_pos (this.2 hs)]
  · rw [if_neg hs, if_neg (fun k => hs (this.1 k))]

theorem organicFlow_eq {m : Material} (hf : ∀ c ∈ m.compounds, Stoich.Spec.IsFormula c) {ms : List ℝ} {g : Str → ℝ} (h : ms = m.compounds.map g) :
    organicFlow m ms = elemTotal (elemSum m.compounds g) := by
  unfold organicFlow coalSymbols elemTotal
  simp only [List.map_cons, List.map_nil, List.sum_cons, List.sum_nil]
  rw [pureFlow_eq hf h (i := 0) rfl, pureFlow_eq hf h (i := 1) rfl, pureFlow_eq hf h (i := 2) rfl, pureFlow_eq hf h (i := 3) rfl, pureFlow_eq hf h (i := 4) rfl]
  ring

theorem analysis_eq {m : Material} (hf : ∀ c ∈ m.compounds, Stoich.Spec.IsFormula c) {ms : List ℝ} {g : Str → ℝ} (h : ms = m.compounds.map g) :
    analysis m ms = elemAssay (elemSum m.compounds g) := by
  unfold analysis elemAssay
  rw [pureFlow_eq hf h (i := 0) rfl, pureFlow_eq hf h (i := 1) rfl, pureFlow_eq hf h (i := 2) rfl, pureFlow_eq hf h (i := 3) rfl, pureFlow_eq hf h (i := 4) rfl, organicFlow_eq hf h]

theorem restEnthalpy_eq (db : Db) {m : Material} (hf : ∀ c ∈ m.compounds, Stoich.Spec.IsFormula c) {ms : List ℝ} {g : Str → ℝ} (h : ms = m.compounds.map g) (t : ℝ) :
    restEnthalpy db m ms t = partH db m.compounds g false t := by
  unfold restEnthalpy partH
  rw [h, zip_map_self, List.map_map]
  refine congrArg List.sum (List.map_congr_left fun c hc => ?_)
  have hk := kind_isSome (hf c hc)
  simp only [Function.comp]
  by_cases hs : ∃ e ∈ coalSymbols, Chem.Spec.share c e = 1
  · rw [if_pos hs, if_neg (by rw [hk.2 hs]; simp)]
  · rw [if_neg hs, if_pos (by rw [Bool.eq_false_iff]; exact fun k => hs (hk.1 k))]

theorem elementEnthalpy_eq (db : Db) {m : Material} (hf : ∀ c ∈ m.compounds, Stoich.Spec.IsFormula c) {ms : List ℝ} {g : Str → ℝ} (h : ms = m.compounds.map g) :
    elementEnthalpy db m ms = partH db m.compounds g true 25 := by
  unfold elementEnthalpy partH
  rw [h, zip_map_self, List.map_map]
  refine congrArg List.sum (List.map_congr_left fun c hc => ?_)
  have hk := kind_isSome (hf c hc)
  simp only [Function.comp]
  by_cases hs : ∃ e ∈ coalSymbols, Chem.Spec.share c e = 1
  · rw [if_pos hs, if_pos (hk.2 hs)]
  · rw [if_neg hs, if_neg (fun k => hs (hk.1 k))]

theorem share_CO2 : Chem.Spec.share "CO2[G]".toList "C".toList = 120107 / 440095 := share_ok (by decide +kernel)
theorem share_H2O : Chem.Spec.share "H2O[L]".toList "H".toList = 50397 / 450382 := share_ok (by decide +kernel)
theorem share_O2 : Chem.Spec.share "O2[G]".toList "O".toList = 1 := share_ok (by decide +kernel)
theorem share_N2 : Chem.Spec.share "N2[G]".toList "N".toList = 1 := share_ok (by decide +kernel)
theorem share_SO2 : Chem.Spec.share "SO2[G]".toList "S".toList = 80165 / 160162 := share_ok (by decide +kernel)

theorem burnedEnthalpy_eq (db : Db) {m : Material} (hf : ∀ c ∈ m.compounds, Stoich.Spec.IsFormula c) {ms : List ℝ} {g : Str → ℝ} (h : ms = m.compounds.map g) :
    burnedEnthalpy db m ms = burnH db (elemSum m.compounds g) := by
  unfold burnedEnthalpy productEnthalpy burnH
  rw [pureFlow_eq hf h (i := 0) rfl, pureFlow_eq hf h (i := 1) rfl, pureFlow_eq hf h (i := 2) rfl, pureFlow_eq hf h (i := 3) rfl, pureFlow_eq hf h (i := 4) rfl]
  rw [share_CO2, share_H2O, share_O2, share_N2, share_SO2]
  simp only [Rat.cast_one, div_one, mul_one]

/-- The enthalpy of coal at 25 °C. -/
theorem coalH_25 (db : Db) (m : Material) (g : Str → ℝ) (d : ℝ) : coalH db m g d 25 = partH db m.compounds g false 25 + d * elemTotal (elemSum m.compounds g) := by
  unfold coalH
  dsimp only
  rw [show (25:ℝ) + 273.15 = 298.15 by norm_num]
  ring

theorem dafH_hdaf {T : ℝ} {y : Coals.Assay} {a : ℝ} (h : Coals.dafH T y = .ok a) : hdaf T y = a := by
  unfold Coals.dafH Coals.calcA at h
  split at h
  · cases h
  · rename_i x hx
    split at hx
    · cases hx
    · cases hx
      split at h
      · cases h
      · exact Except.ok.inj h

end Auxi.Thermo.Props
