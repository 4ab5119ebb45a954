import Verif.Proofs.FileTable

/-!
# Reading the custom properties of a thermo material file
-/
namespace Auxi.FileFormat
open Spec

theorem setCustom_spec (k prop : Str) (v : ℚ) : ∀ d : List (Str × List (Str × ℚ)), k ∈ d.map (·.1) → ∃ d', setCustom k prop v d = .ok d' ∧
    d'.map (·.1) = d.map (·.1) ∧
    ∀ k', d'.lookup k' = if k' = k then (d.lookup k').map (fun l => setItem prop v l) else d.lookup k'
  | [], h => by simp at h
  | (k0, l) :: d, h => by
    by_cases e : k0 = k
    · subst e
      refine ⟨(k0, setItem prop v l) :: d, by rw [setCustom, if_pos rfl], by simp, fun k' => ?_⟩
      by_cases e' : k' = k0
      · subst e'; simp
      · have : (k' == k0) = false := by simpa using e'
        simp [List.lookup_cons, this, e']
    · have h' : k ∈ d.map (·.1) := by
        simp only [List.map_cons, List.mem_cons] at h
        exact h.resolve_left (fun x => e x.symm)
      obtain ⟨d', h1, h2, h4⟩ := setCustom_spec k prop v d h'
      refine ⟨(k0, l) :: d', by rw [setCustom, if_neg e, h1], by simp [h2], fun k' => ?_⟩
      by_cases e' : k' = k0
      · subst e'; simp [e]
      · have : (k' == k0) = false := by simpa using e'
        simp only [List.lookup_cons, this]
        simpa using h4 k'

theorem customRow_spec {names : List Str} (hn : names.Nodup) {r : Row} (h : r.Denotes names.length) : ∀ (js : List ℕ), js.Nodup →
    (∀ j ∈ js, j < names.length) → ∀ (ps : List Str) (d : List (Str × List (Str × ℚ))), d.map (·.1) = names →
    ∃ d', customRow names r.items js (ps, d) = .ok (ps ++ List.replicate js.length r.label, d') ∧ d'.map (·.1) = names ∧
      ∀ (j : ℕ) (name : Str), names[j]? = some name →
        (j ∉ js → d'.lookup name = d.lookup name) ∧
        (j ∈ js → ∃ v, r.values[j]? = some v ∧ d'.lookup name = (d.lookup name).map (fun l => setItem r.label v l))
  | [], _, _, ps, d, hd => ⟨d, by simp [customRow], hd, fun j name _ => ⟨fun _ => rfl, fun hj => by simp at hj⟩⟩
  | j :: js, hnd, hlt, ps, d, hd => by
    have hj : j < names.length := hlt j (by simp)
    obtain ⟨v, hv, hc⟩ := cell_spec h hj
    have hmem : names[j] ∈ d.map (·.1) := by rw [hd]; exact List.getElem_mem hj
    obtain ⟨d1, e1, k1, l1⟩ := setCustom_spec names[j] r.label v d hmem
    rw [List.nodup_cons] at hnd
    obtain ⟨d', e2, k2, l2⟩ := customRow_spec hn h js hnd.2 (fun i hi => hlt i (by simp [hi])) (ps ++ [r.label]) d1 (k1.trans hd)
    refine ⟨d', ?_, k2, ?_⟩
    · have hh : r.items.headD [] = r.label := rfl
      rw [customRow, hc]; dsimp only; rw [hh, e1]; dsimp only; rw [e2]
      simp [List.replicate_succ]
    · intro i name hi
      obtain ⟨g1, g2⟩ := l2 i name hi
      have hin : names[i]'(List.getElem?_eq_some_iff.1 hi).1 = name := (List.getElem?_eq_some_iff.1 hi).2
      by_cases e : i = j
      · subst e
        refine ⟨fun hh => absurd (by simp) hh, fun _ => ⟨v, hv, ?_⟩⟩
        rw [g1 hnd.1, l1 name, if_pos hin.symm]
      · have hne : name ≠ names[j] := by
          rw [← hin]
          exact fun hh => e ((List.Nodup.getElem_inj_iff hn).1 hh)
        refine ⟨fun hh => ?_, fun hh => ?_⟩
        · rw [g1 (fun h' => hh (by simp [h'])), l1 name, if_neg hne]
        · obtain ⟨w, hw, g⟩ := g2 (by simpa [e] using hh)
          exact ⟨w, hw, by rw [g, l1 name, if_neg hne]⟩

theorem customRows_spec {names : List Str} (hn : names.Nodup) : ∀ (rows : List Row) (lines : List Str), lines.map split = rows.map Row.items →
    (∀ r ∈ rows, r.Denotes names.length) → ∀ (rows0 : List Row), ((rows0 ++ rows).map Row.label).Nodup →
    ∀ (ps : List Str) (d : List (Str × List (Str × ℚ))), HoldsCustom names rows0 d →
    ∃ d', customRows names names.length lines (ps, d) = .ok (ps ++ rows.flatMap (fun r => List.replicate names.length r.label), d') ∧
      HoldsCustom names (rows0 ++ rows) d'
  | [], lines, hl, _, rows0, _, ps, d, hd => by
    have : lines = [] := by simpa using hl
    subst this
    exact ⟨d, by simp [customRows], by simpa using hd⟩
  | r :: rows, [], hl, _, _, _, _, _, _ => by simp at hl
  | r :: rows, line :: lines, hl, hr, rows0, hnd, ps, d, hd => by
    simp only [List.map_cons, List.cons.injEq] at hl
    obtain ⟨d1, e1, k1, l1⟩ := customRow_spec hn (hr r (by simp)) (List.range names.length) List.nodup_range
      (fun j hj => List.mem_range.1 hj) ps d hd.1
    rw [List.length_range] at e1
    have hh1 : HoldsCustom names (rows0 ++ [r]) d1 := by
      refine ⟨k1, fun j name hj => ?_⟩
      obtain ⟨props, hp, hc⟩ := hd.2 j name hj
      obtain ⟨v, hv, he⟩ := (l1 j name hj).2 (List.mem_range.2 (List.getElem?_eq_some_iff.1 hj).1)
      have hkeys : props.map (·.1) = rows0.map Row.label := by
        have := congrArg (List.map Prod.fst) hc
        simpa [Function.comp_def] using this
      have hnew : r.label ∉ props.map (·.1) := by
        rw [hkeys]
        rw [List.map_append, List.map_cons] at hnd
        intro hm
        exact (List.nodup_append.1 hnd).2.2 _ hm _ (by simp) rfl
      refine ⟨props ++ [(r.label, v)], ?_, ?_⟩
      · rw [he, hp, ← setItem_new _ _ _ hnew]; rfl
      · rw [List.map_append, hc, List.map_append]; simp [hv]
    obtain ⟨d', e2, h2⟩ := customRows_spec hn rows lines hl.2 (fun q hq => hr q (by simp [hq])) (rows0 ++ [r]) (by simpa using hnd) _ d1 hh1
    refine ⟨d', ?_, by simpa using h2⟩
    rw [customRows, hl.1, e1]
    dsimp only
    rw [e2]; simp

theorem holdsCustom_init {names : List Str} (h : names.Nodup) : HoldsCustom names [] (initDict [] names) := by
  rw [initDict_nodup _ _ h]
  refine ⟨by simp [Function.comp_def], fun j name hj => ⟨[], lookup_const _ _ _ (List.mem_of_getElem? hj), rfl⟩⟩

/-- The elements of a material: those of its compounds, sorted. -/
theorem elementList_spec {cs els : List Str} (h : Stoich.elements cs = .ok els) : ∃ l, elementList cs = .ok l ∧ l.Perm els := by
  unfold elementList
  rw [h]
  exact ⟨_, rfl, List.perm_insertionSort _ _⟩

theorem elementList_error {cs : List Str} {e : PyErr} (h : Stoich.elements cs = .error e) : elementList cs = .error e := by
  unfold elementList; rw [h]

theorem split_at_hash {table : List (List Str)} {hash : List Str} {after : List (List Str)} {lines : List Str}
    (hl : lines.map split = (table ++ hash :: after).map cut) (ht : ∀ fs ∈ table, isHash ((cut fs).headD []) = false)
    (hh : isHash ((cut hash).headD []) = true) :
    (lines.takeWhile (fun l => !isHash l)).map split = table.map cut ∧
    ((lines.dropWhile (fun l => !isHash l)).drop 1).map split = after.map cut := by
  induction table generalizing lines with
  | nil =>
    cases lines with
    | nil => simp at hl
    | cons x lines =>
      simp only [List.nil_append, List.map_cons, List.cons.injEq] at hl
      have : isHash x = true := by rw [isHash_split, hl.1]; exact hh
      rw [List.takeWhile_cons, List.dropWhile_cons, this]
      exact ⟨rfl, hl.2⟩
  | cons fs table ih =>
    cases lines with
    | nil => simp at hl
    | cons x lines =>
      simp only [List.cons_append, List.map_cons, List.cons.injEq] at hl
      have : isHash x = false := by rw [isHash_split, hl.1]; exact ht fs (by simp)
      rw [List.takeWhile_cons, List.dropWhile_cons, this]
      obtain ⟨h1, h2⟩ := ih hl.2 (fun q hq => ht q (by simp [hq]))
      exact ⟨by simp only [Bool.not_false, if_true, List.map_cons, hl.1, h1], h2⟩

theorem no_hash {table : List (List Str)} {lines : List Str}
    (hl : lines.map split = table.map cut) (ht : ∀ fs ∈ table, isHash ((cut fs).headD []) = false) :
    lines.takeWhile (fun l => !isHash l) = lines ∧ lines.dropWhile (fun l => !isHash l) = [] := by
  induction table generalizing lines with
  | nil =>
    have : lines = [] := by simpa using hl
    subst this; exact ⟨rfl, rfl⟩
  | cons fs table ih =>
    cases lines with
    | nil => simp at hl
    | cons x lines =>
      simp only [List.map_cons, List.cons.injEq] at hl
      have : isHash x = false := by rw [isHash_split, hl.1]; exact ht fs (by simp)
      obtain ⟨h1, h2⟩ := ih hl.2 (fun q hq => ht q (by simp [hq]))
      rw [List.takeWhile_cons, List.dropWhile_cons, this]
      exact ⟨by simp [h1], by simpa using h2⟩

end Auxi.FileFormat
