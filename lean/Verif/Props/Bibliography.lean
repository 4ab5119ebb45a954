import Verif.Spec.Bibliography

/-! # C143: looking up an entry of the bibliography -/
namespace Auxi.Bibliography.Props
open Auxi Auxi.Bibliography Auxi.Bibliography.Spec

theorem lookup_map_set {α : Type} (k : Str) (v : α) (x : Str) : ∀ d : List (Str × α), (d.map (fun e => if e.1 = k then (k, v) else e)).lookup x = if x = k ∧ (d.any (fun e => e.1 = k) = true) then some v else d.lookup x := by
  intro d
  induction d with
  | nil => simp
  | cons e d ih =>
    rw [List.map_cons, List.lookup_cons, List.lookup_cons, ih]
    by_cases h : e.1 = k
    · by_cases hx : x = k
      · simp [hx, h]
      · have hb : (x == k) = false := by simpa using hx
        simp [hx, h, hb]
    · by_cases hx : x = e.1
      · subst hx; simp [h]
      · have hb : (x == e.1) = false := by simpa using hx
        simp only [h, if_false, hb, List.any_cons, decide_false, Bool.false_or]

theorem lookup_append_one {α : Type} (k : Str) (v : α) (x : Str) : ∀ d : List (Str × α), (d.any (fun e => e.1 = k)) = false → (d ++ [(k, v)]).lookup x = if x = k then some v else d.lookup x := by
  intro d
  induction d with
  | nil =>
    intro _
    by_cases hx : x = k
    · simp [hx]
    · have hb : (x == k) = false := by simpa using hx
      simp [hx, List.lookup_cons, hb]
  | cons e d ih =>
    intro h
    simp only [List.any_cons, Bool.or_eq_false_iff, decide_eq_false_iff_not] at h
    rw [List.cons_append, List.lookup_cons, List.lookup_cons, ih h.2]
    by_cases hx : x = e.1
    · subst hx; simp [h.1]
    · have hb : (x == e.1) = false := by simpa using hx
      simp [hb]

theorem lookup_set {α : Type} (d : List (Str × α)) (k : Str) (v : α) (x : Str) : (setKey d k v).lookup x = if x = k then some v else d.lookup x := by
  unfold setKey
  split
  · rename_i h
    rw [lookup_map_set]
    by_cases hx : x = k <;> simp [hx, h]
  · rename_i h
    rw [lookup_append_one _ _ _ _ (Bool.eq_false_iff.2 h)]

theorem lookup_fold {α β : Type} (key : β → Str) (val : β → α) (x : Str) : ∀ (l : List β) (d : List (Str × α)),
    (l.foldl (fun d b => setKey d (key b) (val b)) d).lookup x = match l.reverse.find? (fun b => key b = x) with | some b => some (val b) | none => d.lookup x := by
  intro l
  induction l with
  | nil => intro d; rfl
  | cons b l ih =>
    intro d
    rw [List.foldl_cons, ih, List.reverse_cons, List.find?_append]
    cases h : l.reverse.find? (fun b => key b = x) with
    | some c => rfl
    | none =>
      simp only [Option.none_or, List.find?_singleton]
      rw [lookup_set]
      by_cases hx : x = key b
      · simp [hx]
      · simp [hx, Ne.symm hx]

theorem record_shows (e : Entry) : Shows (record e) e := by
  unfold Shows record
  refine ⟨?_, ?_, ?_⟩
  · rw [lookup_set, if_neg (by decide), lookup_set, if_pos rfl]; rfl
  · rw [lookup_set, if_pos rfl]
  · intro name h1 h2
    rw [lookup_set, if_neg h2, lookup_set, if_neg h1, lookup_fold (fun f : Str × Str => lower f.1) (fun f => f.2)]
    show _ = ((e.fields.reverse.find? (fun f => decide (lower f.1 = name))).map (·.2))
    cases e.fields.reverse.find? (fun f => decide (lower f.1 = name)) <;> rfl

theorem standard_iff (e : Entry) : lower e.kind ∈ standardTypes ↔ Classical e := by
  have h : ∀ t ∈ classical, t.map Char.toLower = t := by decide +kernel
  have h2 : standardTypes = classical := by decide +kernel
  rw [h2]
  unfold Classical sameLetters
  constructor
  · intro hm
    exact ⟨_, hm, (h _ hm).symm⟩
  · rintro ⟨t, ht, he⟩
    rw [h t ht] at he
    show e.kind.map Char.toLower ∈ classical
    rw [he]; exact ht

theorem load_lookup (file : List Entry) (key : Str) : (load file).lookup key = (((kept file).reverse.find? (fun e => e.key = key)).map record) := by
  unfold load
  rw [lookup_fold (fun e : Entry => e.key) record]
  cases (kept file).reverse.find? (fun e => e.key = key) <;> rfl

/-- Looking a key up gives the last entry of a classical type with that key, complete and as written. -/
theorem C143_found (file : List Entry) (e : Entry) (h : LastOf file e) : ∃ d, getItem (load file) e.key = .ok d ∧ Shows d e := by
  obtain ⟨b, a, rfl, hc, ha⟩ := h
  refine ⟨record e, ?_, record_shows e⟩
  unfold getItem
  rw [load_lookup]
  have hf : (kept (b ++ e :: a)).reverse.find? (fun x => x.key = e.key) = some e := by
    unfold kept
    rw [List.filter_append, List.filter_cons_of_pos (by simpa using (standard_iff e).2 hc), List.reverse_append, List.reverse_cons, List.append_assoc, List.find?_append]
    have : ((a.filter (fun e => lower e.kind ∈ standardTypes)).reverse.find? (fun x => decide (x.key = e.key))) = none := by
      rw [List.find?_eq_none]
      intro x hx
      rw [List.mem_reverse, List.mem_filter] at hx
      simpa using ha x hx.1 ((standard_iff x).1 (by simpa using hx.2))
    rw [this]
    simp
  rw [hf]
  rfl

/-- A key is refused, with `KeyError`, exactly when no entry of a classical type has it. -/
theorem C143_refused (file : List Entry) (key : Str) : getItem (load file) key = .error .keyError ↔ ∀ e ∈ file, Classical e → e.key ≠ key := by
  unfold getItem
  rw [load_lookup]
  cases h : (kept file).reverse.find? (fun e => e.key = key) with
  | none =>
    simp only [Option.map_none, true_iff]
    intro e he hc hk
    rw [List.find?_eq_none] at h
    have := h e (by unfold kept; rw [List.mem_reverse, List.mem_filter]; exact ⟨he, by simpa using (standard_iff e).2 hc⟩)
    simp [hk] at this
  | some e =>
    simp only [Option.map_some]
    constructor
    · intro hx; cases hx
    · intro hall
      have h1 := List.mem_of_find?_eq_some h
      have h2 := List.find?_some h
      unfold kept at h1
      rw [List.mem_reverse, List.mem_filter] at h1
      exact absurd (by simpa using h2) (hall e h1.1 ((standard_iff e).1 (by simpa using h1.2)))

/-- The three books that are shipped are found. -/
theorem C143_shipped : ∀ e ∈ shipped.take 3, LastOf shipped e ∧ ∃ d, getItem (load shipped) e.key = .ok d ∧ Shows d e := by
  have hlast : ∀ e ∈ shipped.take 3, LastOf shipped e := by
    intro e he
    have hc : ∀ i : Fin 3, Classical (shipped[i.1]'(by have := i.2; show i.1 < 5; omega)) := by
      intro i
      exact ⟨"book".toList, by decide +kernel, by unfold sameLetters; revert i; decide +kernel⟩
    have hi : ∃ i : Fin 3, e = shipped[i.1]'(by have := i.2; show i.1 < 5; omega) := by
      revert e; decide +kernel
    obtain ⟨i, rfl⟩ := hi
    clear he
    refine ⟨shipped.take i.1, shipped.drop (i.1 + 1), ?_, hc i, ?_⟩
    · revert i; decide +kernel
    · have : ∀ i : Fin 3, ∀ x ∈ shipped.drop (i.1 + 1), x.key ≠ (shipped[i.1]'(by have := i.2; show i.1 < 5; omega)).key := by decide +kernel
      exact fun x hx _ => this i x hx
  exact fun e he => ⟨hlast e he, C143_found _ _ (hlast e he)⟩

/-- Two of the five entries that are shipped, a report and an online source, cannot be looked up. -/
theorem C143_violated : ∃ e ∈ shipped, getItem (load shipped) e.key = .error .keyError := by
  exact ⟨shipped[3], by decide +kernel, by decide +kernel⟩

theorem C143_violated_constants : "nist2018-constants".toList ∈ shipped.map (·.key) ∧ getItem (load shipped) "nist2018-constants".toList = .error .keyError := by decide +kernel

/-- A file in which an entry is repeated under the same key: the first is lost without a word. -/
example : LastOf [⟨"Book".toList, "k".toList, [("Title".toList, "one".toList)]⟩, ⟨"misc".toList, "k".toList, [("Title".toList, "two".toList)]⟩] ⟨"misc".toList, "k".toList, [("Title".toList, "two".toList)]⟩ :=
  ⟨[⟨"Book".toList, "k".toList, [("Title".toList, "one".toList)]⟩], [], rfl, ⟨"misc".toList, by decide +kernel, rfl⟩, by simp⟩

end Auxi.Bibliography.Props
