import Verif.Proofs.FileFormat

/-!
# Reading the table of a material file
-/
namespace Auxi.FileFormat
open Spec

/-! ### Readers depend on the items only -/

theorem split_ne (s : Str) : split s ≠ [] := by
  cases s with
  | nil => simp [split]
  | cons c s =>
    rw [split]; split
    · simp
    · cases split s <;> simp

theorem isHash_split (s : Str) : isHash s = isHash ((split s).headD []) := by
  cases s with
  | nil => rfl
  | cons c s =>
    rw [split]
    by_cases h : c = ' '
    · subst h; rfl
    · rw [if_neg h]
      have := split_ne s
      cases h2 : split s with
      | nil => exact absurd h2 this
      | cons w ws =>
        by_cases h3 : c = '#'
        · subst h3; rfl
        · have h4 : ∀ x, isHash (c :: x) = false := by
            intro x; unfold isHash; split
            · rename_i heq; simp only [List.cons.injEq] at heq; exact absurd heq.1 h3
            · rfl
          rw [h4]; exact (h4 _).symm

theorem tableRows_congr {κ : Type} (label : Str → Res κ) (names : List Str) : ∀ (a b : List Str), a.map split = b.map split →
    ∀ st, tableRows label names a st = tableRows label names b st
  | [], [], _, _ => rfl
  | [], _ :: _, h, _ => by simp at h
  | _ :: _, [], h, _ => by simp at h
  | x :: a, y :: b, h, (ks, d) => by
    simp only [List.map_cons, List.cons.injEq] at h
    rw [tableRows, tableRows, h.1]
    simp only [tableRows_congr label names a b h.2]

theorem customRows_congr (names : List Str) (n : ℕ) : ∀ (a b : List Str), a.map split = b.map split →
    ∀ st, customRows names n a st = customRows names n b st
  | [], [], _, _ => rfl
  | [], _ :: _, h, _ => by simp at h
  | _ :: _, [], h, _ => by simp at h
  | x :: a, y :: b, h, st => by
    simp only [List.map_cons, List.cons.injEq] at h
    rw [customRows, customRows, h.1]
    simp only [customRows_congr names n a b h.2]

/-- Relation of two lists of lines that split alike. -/
theorem split_takeWhile : ∀ (a b : List Str), a.map split = b.map split →
    (a.takeWhile (fun l => !isHash l)).map split = (b.takeWhile (fun l => !isHash l)).map split ∧
    (a.dropWhile (fun l => !isHash l)).map split = (b.dropWhile (fun l => !isHash l)).map split
  | [], [], _ => ⟨rfl, rfl⟩
  | [], _ :: _, h => by simp at h
  | _ :: _, [], h => by simp at h
  | x :: a, y :: b, h => by
    have h' := h
    simp only [List.map_cons, List.cons.injEq] at h
    have ih := split_takeWhile a b h.2
    have e : isHash x = isHash y := by rw [isHash_split x, isHash_split y, h.1]
    rw [List.takeWhile_cons, List.takeWhile_cons, List.dropWhile_cons, List.dropWhile_cons, e]
    split
    · simp only [List.map_cons, h.1]; exact ⟨by rw [ih.1], ih.2⟩
    · exact ⟨rfl, h'⟩

theorem chemOfLines_congr (i : ℕ) : ∀ (a b : List Str), a.map split = b.map split → chemOfLines i a = chemOfLines i b
  | [], [], _ => rfl
  | [], _ :: _, h => by simp at h
  | _ :: _, [], h => by simp at h
  | x :: a, y :: b, h => by
    simp only [List.map_cons, List.cons.injEq] at h
    simp only [chemOfLines, assayNames, h.1, tableRows_congr _ _ a b h.2]

theorem psdOfLines_congr (i : ℕ) : ∀ (a b : List Str), a.map split = b.map split → psdOfLines i a = psdOfLines i b
  | [], [], _ => rfl
  | [], _ :: _, h => by simp at h
  | _ :: _, [], h => by simp at h
  | x :: a, y :: b, h => by
    simp only [List.map_cons, List.cons.injEq] at h
    simp only [psdOfLines, assayNames, h.1, tableRows_congr _ _ a b h.2]

theorem titledRow_congr (t : Str) (names : List Str) (x y : Option Str) (d : List (Str × ℚ)) (h : x.map split = y.map split) :
    titledRow t names x d = titledRow t names y d := by
  cases x <;> cases y <;> simp at h
  · rfl
  · simp only [titledRow, h]

theorem slurryOfLines_congr (i : ℕ) : ∀ (a b : List Str), a.map split = b.map split → slurryOfLines i a = slurryOfLines i b
  | [], [], _ => rfl
  | [], _ :: _, h => by simp at h
  | _ :: _, [], h => by simp at h
  | x :: a, y :: b, h => by
    simp only [List.map_cons, List.cons.injEq] at h
    have h0 : ∀ k : ℕ, (a[k]?).map split = (b[k]?).map split := fun k => by rw [← List.getElem?_map, ← List.getElem?_map, h.2]
    have h2 : (a.drop 2).map split = (b.drop 2).map split := by rw [List.map_drop, List.map_drop, h.2]
    simp only [slurryOfLines, assayNames, h.1, titledRow_congr _ _ _ _ _ (h0 0), titledRow_congr _ _ _ _ _ (h0 1), tableRows_congr _ _ _ _ h2]

theorem thermoOfLines_congr : ∀ (a b : List Str), a.map split = b.map split → thermoOfLines a = thermoOfLines b
  | [], [], _ => rfl
  | [], _ :: _, h => by simp at h
  | _ :: _, [], h => by simp at h
  | x :: a, y :: b, h => by
    simp only [List.map_cons, List.cons.injEq] at h
    have h1 := split_takeWhile a b h.2
    have h2 : ((a.dropWhile (fun l => !isHash l)).drop 1).map split = ((b.dropWhile (fun l => !isHash l)).drop 1).map split := by
      rw [List.map_drop, List.map_drop, h1.2]
    simp only [thermoOfLines, assayNames, h.1, tableRows_congr _ _ _ _ h1.1, customRows_congr _ _ _ _ h2]

/-! ### Dictionaries -/

theorem lookup_isSome {α : Type} {k : Str} : ∀ {d : List (Str × α)}, k ∈ d.map (·.1) → ∃ v, d.lookup k = some v
  | [], h => by simp at h
  | (k', v) :: d, h => by
    by_cases e : k = k'
    · exact ⟨v, by have : (k == k') = true := by { simpa using e }; rw [List.lookup_cons, this]⟩
    · have h' : k ∈ d.map (·.1) := by
        simp only [List.map_cons, List.mem_cons] at h
        exact h.resolve_left e
      obtain ⟨v', hv⟩ := lookup_isSome h'
      exact ⟨v', by have : (k == k') = false := by { simpa using e }; rw [List.lookup_cons, this]; exact hv⟩

theorem appendItem_spec (k : Str) (v : ℚ) : ∀ d : List (Str × List ℚ), k ∈ d.map (·.1) → ∃ d', appendItem k v d = .ok d' ∧
    d'.map (·.1) = d.map (·.1) ∧ d'.length = d.length ∧
    ∀ k', d'.lookup k' = if k' = k then (d.lookup k').map (fun l => l ++ [v]) else d.lookup k'
  | [], h => by simp at h
  | (k0, l) :: d, h => by
    by_cases e : k0 = k
    · subst e
      refine ⟨(k0, l ++ [v]) :: d, by rw [appendItem, if_pos rfl], by simp, by simp, fun k' => ?_⟩
      by_cases e' : k' = k0
      · subst e'; simp
      · have : (k' == k0) = false := by simpa using e'
        simp [List.lookup_cons, this, e']
    · have h' : k ∈ d.map (·.1) := by
        simp only [List.map_cons, List.mem_cons] at h
        exact h.resolve_left (fun x => e x.symm)
      obtain ⟨d', h1, h2, h3, h4⟩ := appendItem_spec k v d h'
      refine ⟨(k0, l) :: d', by rw [appendItem, if_neg e, h1], by simp [h2], by simp [h3], fun k' => ?_⟩
      by_cases e' : k' = k0
      · subst e'; simp [e]
      · have : (k' == k0) = false := by simpa using e'
        simp only [List.lookup_cons, this]
        simpa using h4 k'

theorem setItem_new {α : Type} (k : Str) (v : α) : ∀ d : List (Str × α), k ∉ d.map (·.1) → setItem k v d = d ++ [(k, v)]
  | [], _ => rfl
  | (k0, w) :: d, h => by
    simp only [List.map_cons, List.mem_cons, not_or] at h
    rw [setItem, if_neg (fun e => h.1 e.symm), setItem_new k v d h.2]; rfl

theorem setItem_spec {α : Type} (k : Str) (v : α) : ∀ d : List (Str × α), k ∈ d.map (·.1) →
    (setItem k v d).map (·.1) = d.map (·.1) ∧ ∀ k', (setItem k v d).lookup k' = if k' = k then some v else d.lookup k'
  | [], h => by simp at h
  | (k0, w) :: d, h => by
    by_cases e : k0 = k
    · subst e
      rw [setItem, if_pos rfl]
      refine ⟨by simp, fun k' => ?_⟩
      by_cases e' : k' = k0
      · subst e'; simp
      · have : (k' == k0) = false := by simpa using e'
        simp [List.lookup_cons, this, e']
    · have h' : k ∈ d.map (·.1) := by
        simp only [List.map_cons, List.mem_cons] at h
        exact h.resolve_left (fun x => e x.symm)
      obtain ⟨h1, h2⟩ := setItem_spec k v d h'
      rw [setItem, if_neg e]
      refine ⟨by simp [h1], fun k' => ?_⟩
      by_cases e' : k' = k0
      · subst e'; simp [e]
      · have : (k' == k0) = false := by simpa using e'
        simp only [List.lookup_cons, this]
        simpa using h2 k'

theorem initDict_nodup {α : Type} (v : α) (names : List Str) (h : names.Nodup) : initDict v names = names.map (fun n => (n, v)) := by
  have aux : ∀ (names : List Str) (d : List (Str × α)), names.Nodup → (∀ n ∈ names, n ∉ d.map (·.1)) →
      names.foldl (fun d n => setItem n v d) d = d ++ names.map (fun n => (n, v)) := by
    intro names
    induction names with
    | nil => intro d _ _; simp
    | cons n names ih =>
      intro d hn hd
      rw [List.foldl_cons, setItem_new n v d (hd n (by simp))]
      rw [List.nodup_cons] at hn
      rw [ih _ hn.2 (fun m hm => ?_)]
      · simp
      · simp only [List.map_append, List.map_cons, List.map_nil, List.mem_append, List.mem_singleton, not_or]
        exact ⟨hd m (by simp [hm]), fun e => hn.1 (e ▸ hm)⟩
  have := aux names [] h (by simp)
  simpa [initDict] using this

theorem lookup_const {α : Type} (v : α) (k : Str) : ∀ names : List Str, k ∈ names → (names.map (fun n => (n, v))).lookup k = some v
  | [], h => by simp at h
  | n :: names, h => by
    by_cases e : k = n
    · subst e; simp [List.lookup_cons]
    · have : (k == n) = false := by simpa using e
      simp only [List.map_cons, List.lookup_cons, this]
      exact lookup_const v k names (by simpa [e] using h)

/-! ### Rows -/

theorem denotes_get {n : ℕ} {r : Row} (h : r.Denotes n) {j : ℕ} (hj : j < n) : ∃ t v, r.items[j + 1]? = some t ∧ r.values[j]? = some v ∧
    pyFloat t = .ok v := by
  obtain ⟨h1, h2⟩ := h
  have hl := h2.length_eq
  have hv : j < r.values.length := h1 ▸ hj
  have ht : j < r.texts.length := hl ▸ hv
  refine ⟨r.texts[j], r.values[j], ?_, List.getElem?_eq_getElem hv, ?_⟩
  · unfold Row.items
    rw [List.cons_append, List.getElem?_cons_succ, List.getElem?_append_left ht, List.getElem?_eq_getElem ht]
  · exact (List.forall₂_iff_get.1 h2).2 j ht hv

theorem cell_spec {names : List Str} {r : Row} (h : r.Denotes names.length) {j : ℕ} (hj : j < names.length) :
    ∃ v, r.values[j]? = some v ∧ cell names r.items j = .ok (names[j], v) := by
  obtain ⟨t, v, h1, h2, h3⟩ := denotes_get h hj
  refine ⟨v, h2, ?_⟩
  unfold cell
  rw [List.getElem?_eq_getElem hj]
  dsimp only
  rw [h1]
  dsimp only
  rw [h3]

theorem addRow_spec {names : List Str} (hn : names.Nodup) {r : Row} (h : r.Denotes names.length) : ∀ (js : List ℕ), js.Nodup →
    (∀ j ∈ js, j < names.length) → ∀ d : List (Str × List ℚ), d.map (·.1) = names →
    ∃ d', addRow names r.items js d = .ok d' ∧ d'.map (·.1) = names ∧
      ∀ (j : ℕ) (name : Str), names[j]? = some name →
        (j ∉ js → d'.lookup name = d.lookup name) ∧
        (j ∈ js → ∃ v, r.values[j]? = some v ∧ d'.lookup name = (d.lookup name).map (fun l => l ++ [v]))
  | [], _, _, d, hd => ⟨d, rfl, hd, fun j name _ => ⟨fun _ => rfl, fun hj => by simp at hj⟩⟩
  | j :: js, hnd, hlt, d, hd => by
    have hj : j < names.length := hlt j (by simp)
    obtain ⟨v, hv, hc⟩ := cell_spec h hj
    have hmem : names[j] ∈ d.map (·.1) := by rw [hd]; exact List.getElem_mem hj
    obtain ⟨d1, e1, k1, _, l1⟩ := appendItem_spec names[j] v d hmem
    rw [List.nodup_cons] at hnd
    obtain ⟨d', e2, k2, l2⟩ := addRow_spec hn h js hnd.2 (fun i hi => hlt i (by simp [hi])) d1 (k1.trans hd)
    refine ⟨d', ?_, k2, ?_⟩
    · rw [addRow, hc]; dsimp only; rw [e1]; exact e2
    · intro i name hi
      obtain ⟨g1, g2⟩ := l2 i name hi
      have hi' : i < names.length := (List.getElem?_eq_some_iff.1 hi).1
      have hin : names[i] = name := (List.getElem?_eq_some_iff.1 hi).2
      by_cases e : i = j
      · subst e
        refine ⟨fun hh => absurd (by simp) hh, fun _ => ⟨v, hv, ?_⟩⟩
        rw [g1 hnd.1, l1 name, if_pos hin.symm]
      · have hne : name ≠ names[j] := by
          rw [← hin]
          exact fun hh => e ((List.Nodup.getElem_inj_iff hn).1 hh)
        refine ⟨fun hh => ?_, fun hh => ?_⟩
        · rw [g1 (fun h' => hh (by simp [h'])), l1 name, if_neg hne]
        · have hh' : i ∈ js := by simpa [e] using hh
          obtain ⟨w, hw, g⟩ := g2 hh'
          exact ⟨w, hw, by rw [g, l1 name, if_neg hne]⟩

theorem holds_init {names : List Str} (h : names.Nodup) : Holds names [] (initDict [] names) := by
  rw [initDict_nodup _ _ h]
  refine ⟨by simp [Function.comp_def], fun j name hj => ⟨[], lookup_const _ _ _ ?_, rfl⟩⟩
  exact List.mem_of_getElem? hj

theorem holds_row {names : List Str} (hn : names.Nodup) {rows : List Row} {d : List (Str × List ℚ)} (hd : Holds names rows d)
    {r : Row} (h : r.Denotes names.length) : ∃ d', addRow names r.items (List.range d.length) d = .ok d' ∧ Holds names (rows ++ [r]) d' := by
  have hlen : d.length = names.length := by rw [← hd.1, List.length_map]
  rw [hlen]
  obtain ⟨d', h1, h2, h3⟩ := addRow_spec hn h (List.range names.length) List.nodup_range (fun j hj => List.mem_range.1 hj) d hd.1
  refine ⟨d', h1, h2, fun j name hj => ?_⟩
  obtain ⟨l, hl, hc⟩ := hd.2 j name hj
  obtain ⟨v, hv, he⟩ := (h3 j name hj).2 (List.mem_range.2 (List.getElem?_eq_some_iff.1 hj).1)
  refine ⟨l ++ [v], by rw [he, hl]; rfl, ?_⟩
  unfold Column at hc ⊢
  rw [List.map_append, hc, List.map_append]
  simp [hv]

/-- Reading the rows of a table. -/
theorem tableRows_spec {κ : Type} {label : Str → Res κ} {names : List Str} (hn : names.Nodup) : ∀ (layout : List (List Str)) (lines : List Str)
    (rows : List Row) (ks : List κ), lines.map split = layout.map cut → Full names layout rows →
    List.Forall₂ (fun r k => label r.label = .ok k) rows ks → ∀ (ks0 : List κ) (rows0 : List Row) (d : List (Str × List ℚ)),
    Holds names rows0 d → ∃ d', tableRows label names lines (ks0, d) = .ok (ks0 ++ ks, d') ∧ Holds names (rows0 ++ rows) d'
  | [], lines, rows, ks, hl, hf, hk, ks0, rows0, d, hd => by
    have h1 : lines = [] := by simpa using hl
    have h2 : rows = [] := by have := hf.1; simpa using this.symm
    subst h1 h2
    have h3 : ks = [] := List.forall₂_nil_left_iff.1 hk
    subst h3
    exact ⟨d, by simp [tableRows], by simpa using hd⟩
  | fs :: layout, [], rows, ks, hl, _, _, _, _, _, _ => by simp at hl
  | fs :: layout, line :: lines, rows, ks, hl, hf, hk, ks0, rows0, d, hd => by
    simp only [List.map_cons, List.cons.injEq] at hl
    obtain ⟨hf1, hf2, hf3⟩ := hf
    have hb : names ≠ [] ∨ [] ∉ layout := hf3.imp id (fun h h' => h (by simp [h']))
    have hlen : (split line).length < names.length + 1 ↔ ¬ names.length < fs.length := by
      rw [hl.1]; unfold cut
      by_cases e : fs = []
      · subst e
        rw [if_pos rfl]
        simp only [List.length_cons, List.length_nil, not_lt]
        rcases hf3 with h | h
        · have := List.length_pos_iff.2 h
          exact ⟨fun _ => by omega, fun _ => by omega⟩
        · exact absurd (by simp) h
      · rw [if_neg e]; omega
    rw [tableRows]
    by_cases h : names.length < fs.length
    · rw [if_neg (fun hh => (hlen.1 hh) h)]
      rw [List.filter_cons, if_pos (by simpa using h)] at hf1
      cases rows with
      | nil => simp at hf1
      | cons r rows =>
        simp only [List.map_cons, List.cons.injEq] at hf1
        cases hk with
        | cons hk1 hk2 =>
          rename_i k ks
          have hs : split line = r.items := by
            rw [hl.1]; unfold cut
            rw [if_neg (by rw [hf1.1]; unfold Row.items; simp), hf1.1]
          rw [hs]
          have hh : r.items.headD [] = r.label := rfl
          rw [hh, hk1]
          dsimp only
          obtain ⟨d1, e1, g1⟩ := holds_row hn hd (hf2 r (by simp))
          rw [e1]
          obtain ⟨d', e2, g2⟩ := tableRows_spec hn layout lines rows ks hl.2 ⟨hf1.2, fun q hq => hf2 q (by simp [hq]), hb⟩ hk2
            (ks0 ++ [k]) (rows0 ++ [r]) d1 g1
          refine ⟨d', ?_, by simpa using g2⟩
          dsimp only
          rw [e2]; simp
    · rw [if_pos (hlen.2 h)]
      rw [List.filter_cons, if_neg (by simpa using h)] at hf1
      exact tableRows_spec hn layout lines rows ks hl.2 ⟨hf1, hf2, hb⟩ hk ks0 rows0 d hd

theorem forall₂_label (rows : List Row) : List.Forall₂ (fun r k => (Except.ok r.label : Res Str) = .ok k) rows (rows.map Row.label) := by
  induction rows with
  | nil => exact .nil
  | cons r rows ih => exact .cons rfl ih

/-- The titled lines of a slurry file. -/
theorem setRow_spec {names : List Str} (hn : names.Nodup) {r : Row} (h : r.Denotes names.length) : ∀ (js : List ℕ), js.Nodup →
    (∀ j ∈ js, j < names.length) → ∀ d : List (Str × ℚ), d.map (·.1) = names →
    ∃ d', setRow names r.items js d = .ok d' ∧ d'.map (·.1) = names ∧
      ∀ (j : ℕ) (name : Str), names[j]? = some name →
        (j ∉ js → d'.lookup name = d.lookup name) ∧ (j ∈ js → d'.lookup name = r.values[j]?)
  | [], _, _, d, hd => ⟨d, rfl, hd, fun j name _ => ⟨fun _ => rfl, fun hj => by simp at hj⟩⟩
  | j :: js, hnd, hlt, d, hd => by
    have hj : j < names.length := hlt j (by simp)
    obtain ⟨v, hv, hc⟩ := cell_spec h hj
    have hmem : names[j] ∈ d.map (·.1) := by rw [hd]; exact List.getElem_mem hj
    obtain ⟨k1, l1⟩ := setItem_spec names[j] v d hmem
    rw [List.nodup_cons] at hnd
    obtain ⟨d', e2, k2, l2⟩ := setRow_spec hn h js hnd.2 (fun i hi => hlt i (by simp [hi])) _ (k1.trans hd)
    refine ⟨d', ?_, k2, ?_⟩
    · rw [setRow, hc]; exact e2
    · intro i name hi
      obtain ⟨g1, g2⟩ := l2 i name hi
      have hin : names[i]'(List.getElem?_eq_some_iff.1 hi).1 = name := (List.getElem?_eq_some_iff.1 hi).2
      by_cases e : i = j
      · subst e
        refine ⟨fun hh => absurd (by simp) hh, fun _ => ?_⟩
        rw [g1 hnd.1, l1 name, if_pos hin.symm, hv]
      · have hne : name ≠ names[j] := by
          rw [← hin]
          exact fun hh => e ((List.Nodup.getElem_inj_iff hn).1 hh)
        refine ⟨fun hh => ?_, fun hh => ?_⟩
        · rw [g1 (fun h' => hh (by simp [h'])), l1 name, if_neg hne]
        · exact g2 (by simpa [e] using hh)

theorem titledRow_spec {title : Str} {names : List Str} (hn : names.Nodup) {r : Row} (h : r.Denotes names.length) (ht : r.label = title)
    {line : Str} (hl : split line = r.items) (v : ℚ) : ∃ d', titledRow title names (some line) (initDict v names) = .ok d' ∧
      d'.map (·.1) = names ∧ ∀ (j : ℕ) (name : Str), names[j]? = some name → d'.lookup name = r.values[j]? := by
  rw [initDict_nodup _ _ hn]
  obtain ⟨d', h1, h2, h3⟩ := setRow_spec hn h (List.range names.length) List.nodup_range (fun j hj => List.mem_range.1 hj)
    (names.map (fun n => (n, v))) (by simp [Function.comp_def])
  refine ⟨d', ?_, h2, fun j name hj => (h3 j name hj).2 (List.mem_range.2 (List.getElem?_eq_some_iff.1 hj).1)⟩
  unfold titledRow
  dsimp only
  have hh : r.items.headD [] = r.label := rfl
  rw [hl, hh, if_neg (by simp [ht]), List.length_map, h1]

end Auxi.FileFormat
