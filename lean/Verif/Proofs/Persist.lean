import Verif.Spec.Persist
import Verif.Proofs.JsonSort
import Verif.Proofs.ThermoChem

/-!
# Proofs about writing and reading objects (C114)
-/
namespace Auxi.Persist.Proofs
open Auxi Persist Persist.Spec Json Json.Proofs

variable {F : Type}

/-! ## The object that is read -/

mutual
/-- The object with its bound methods dropped and its entries ordered by key. -/
def canon : Py F → Py F
  | .none => .none
  | .bool b => .bool b
  | .num x => .num x
  | .str s => .str s
  | .list l => .list (canonItems l)
  | .dict l => .dict (sortKeys (canonPairs l))
  | .inst c l => .inst c (sortKeys (canonPairs l))
  | .method m => .method m
def canonItems : List (Py F) → List (Py F)
  | [] => []
  | v :: l => canon v :: canonItems l
def canonPairs : List (Str × Py F) → List (Str × Py F)
  | [] => []
  | (k, v) :: l => if isMethod v then canonPairs l else (k, canon v) :: canonPairs l
end

theorem reserved_iff (k : Str) : reserved k = false ↔ ¬ "py/".toList <+: k := by
  unfold reserved
  rw [Bool.eq_false_iff, ne_eq, List.isPrefixOf_iff_prefix]

/-- The entries that are written. -/
abbrev kept (l : List (Str × Py F)) : List (Str × Py F) := l.filter (fun e => !isMethod e.2)

theorem canonPairs_eq (l : List (Str × Py F)) : canonPairs l = (kept l).map (fun e => (e.1, canon e.2)) := by
  induction l with
  | nil => rfl
  | cons e l ih =>
    obtain ⟨k, v⟩ := e
    simp only [canonPairs, kept, List.filter_cons]
    by_cases h : isMethod v = true
    · simp only [h, if_true, Bool.not_true, Bool.false_eq_true, if_false]; exact ih
    · rw [Bool.not_eq_true] at h
      simp only [h, Bool.false_eq_true, if_false, Bool.not_false, if_true, List.map_cons]; rw [ih]

theorem flattenPairs_eq (l : List (Str × Py F)) (hr : ∀ e ∈ l, reserved e.1 = false) : flattenPairs l = (kept l).map (fun e => (e.1, flatten e.2)) := by
  induction l with
  | nil => rfl
  | cons e l ih =>
    obtain ⟨k, v⟩ := e
    have h0 := hr (k, v) (List.mem_cons_self ..)
    have ih := ih (fun e he => hr e (List.mem_cons_of_mem _ he))
    simp only [flattenPairs, kept, List.filter_cons]
    by_cases h : isMethod v = true
    · simp only [h, Bool.or_true, if_true, Bool.not_true, Bool.false_eq_true, if_false]; exact ih
    · rw [Bool.not_eq_true] at h
      simp only [h, h0, Bool.or_false, Bool.false_eq_true, if_false, Bool.not_false, if_true, List.map_cons]; rw [ih]

theorem sortedPairs_eq (l : List (Str × J F)) : sortedPairs l = l.map (fun e => (e.1, sorted e.2)) := by
  induction l with
  | nil => rfl
  | cons e l ih => obtain ⟨k, v⟩ := e; simp only [sortedPairs, List.map_cons]; rw [ih]

theorem restorePairs_eq (l : List (Str × J F)) : restorePairs l = l.map (fun e => (e.1, restore e.2)) := by
  induction l with
  | nil => rfl
  | cons e l ih => obtain ⟨k, v⟩ := e; simp only [restorePairs, List.map_cons]; rw [ih]

theorem restoreAttrs_eq (l : List (Str × J F)) : restoreAttrs l = (l.filter (fun e => !reserved e.1)).map (fun e => (e.1, restore e.2)) := by
  induction l with
  | nil => rfl
  | cons e l ih =>
    obtain ⟨k, v⟩ := e
    simp only [restoreAttrs, List.filter_cons]
    by_cases h : reserved k = true
    · simp only [h, if_true, Bool.not_true, Bool.false_eq_true, if_false]; exact ih
    · rw [Bool.not_eq_true] at h
      simp only [h, Bool.false_eq_true, if_false, Bool.not_false, if_true, List.map_cons]; rw [ih]

theorem plainPairs_iff (l : List (Str × Py F)) : PlainPairs l ↔ ∀ e ∈ l, reserved e.1 = false ∧ Plain e.2 := by
  induction l with
  | nil => simp [PlainPairs]
  | cons e l ih =>
    obtain ⟨k, v⟩ := e
    simp only [PlainPairs, List.forall_mem_cons, ih, reserved_iff, and_assoc]

theorem plainAttrs_iff (l : List (Str × Py F)) : PlainAttrs l ↔ ∀ e ∈ l, reserved e.1 = false ∧ ((∃ m, e.2 = .method m) ∨ Plain e.2) := by
  induction l with
  | nil => simp [PlainAttrs]
  | cons e l ih =>
    obtain ⟨k, v⟩ := e
    simp only [PlainAttrs, List.forall_mem_cons, ih, reserved_iff, and_assoc]

theorem plainItems_iff (l : List (Py F)) : PlainItems l ↔ ∀ e ∈ l, Plain e := by
  induction l with
  | nil => simp [PlainItems]
  | cons e l ih => simp only [PlainItems, List.forall_mem_cons, ih]

theorem isMethod_iff (v : Py F) : isMethod v = true ↔ ∃ m, v = .method m := by
  cases v <;> simp [isMethod]

theorem plain_not_method {v : Py F} (h : Plain v) : isMethod v = false := by
  cases v with
  | method m => exact h.elim
  | _ => rfl

theorem canon_isMethod (v : Py F) : isMethod (canon v) = isMethod v := by cases v <;> rfl

/-- The parts of an object are smaller. -/
theorem size_item {l : List (Py F)} {v : Py F} (h : v ∈ l) : sizeOf v < sizeOf (Py.list l) := by
  have := List.sizeOf_lt_of_mem h
  simp only [Py.list.sizeOf_spec]; omega

theorem size_entry {l : List (Str × Py F)} {e : Str × Py F} (h : e ∈ l) : sizeOf e.2 < sizeOf (Py.dict l) := by
  have := List.sizeOf_lt_of_mem h
  obtain ⟨k, v⟩ := e
  simp only [Py.dict.sizeOf_spec, Prod.mk.sizeOf_spec] at *; omega

theorem size_attr {l : List (Str × Py F)} {c : Str} {e : Str × Py F} (h : e ∈ l) : sizeOf e.2 < sizeOf (Py.inst c l) := by
  have := List.sizeOf_lt_of_mem h
  obtain ⟨k, v⟩ := e
  simp only [Py.inst.sizeOf_spec, Prod.mk.sizeOf_spec] at *; omega

/-- Induction over plain objects. -/
theorem plain_induction {P : Py F → Prop} (h0 : P .none) (h1 : ∀ b, P (.bool b)) (h2 : ∀ x, P (.num x)) (h3 : ∀ s, P (.str s))
    (h4 : ∀ l : List (Py F), (∀ v ∈ l, Plain v ∧ P v) → P (.list l))
    (h5 : ∀ l : List (Str × Py F), (l.map (·.1)).Nodup → (∀ e ∈ l, reserved e.1 = false ∧ Plain e.2 ∧ P e.2) → P (.dict l))
    (h6 : ∀ (c : Str) (l : List (Str × Py F)), (l.map (·.1)).Nodup → (∀ e ∈ l, reserved e.1 = false ∧ ((∃ m, e.2 = .method m) ∨ (Plain e.2 ∧ P e.2))) → P (.inst c l)) :
    ∀ o : Py F, Plain o → P o := by
  intro o
  induction hn : sizeOf o using Nat.strong_induction_on generalizing o with
  | _ n ih =>
    intro ho
    cases o with
    | none => exact h0
    | bool b => exact h1 b
    | num x => exact h2 x
    | str s => exact h3 s
    | list l =>
      rw [Plain, plainItems_iff] at ho
      exact h4 l (fun v hv => ⟨ho v hv, ih _ (hn ▸ size_item hv) v rfl (ho v hv)⟩)
    | dict l =>
      rw [Plain, plainPairs_iff] at ho
      exact h5 l ho.1 (fun e he => ⟨(ho.2 e he).1, (ho.2 e he).2, ih _ (hn ▸ size_entry he) e.2 rfl (ho.2 e he).2⟩)
    | inst c l =>
      rw [Plain, plainAttrs_iff] at ho
      refine h6 c l ho.1 (fun e he => ⟨(ho.2 e he).1, ?_⟩)
      rcases (ho.2 e he).2 with h | h
      · exact Or.inl h
      · exact Or.inr ⟨h, ih _ (hn ▸ size_attr he) e.2 rfl h⟩
    | method m => exact ho.elim

theorem kept_sub {l : List (Str × Py F)} {e : Str × Py F} (h : e ∈ kept l) : e ∈ l ∧ isMethod e.2 = false := by
  rw [kept, List.mem_filter] at h
  exact ⟨h.1, by simpa using h.2⟩

theorem kept_plain {l : List (Str × Py F)} {P : Py F → Prop} (h : ∀ e ∈ l, reserved e.1 = false ∧ ((∃ m, e.2 = .method m) ∨ (Plain e.2 ∧ P e.2))) :
    ∀ e ∈ kept l, reserved e.1 = false ∧ Plain e.2 ∧ P e.2 := by
  intro e he
  obtain ⟨h1, h2⟩ := kept_sub he
  refine ⟨(h e h1).1, ?_⟩
  rcases (h e h1).2 with h3 | h3
  · rw [(isMethod_iff _).2 h3] at h2; cases h2
  · exact h3

theorem kept_nodup {l : List (Str × Py F)} (h : (l.map (·.1)).Nodup) : ((kept l).map (·.1)).Nodup :=
  h.sublist (List.Sublist.map _ List.filter_sublist)

theorem kept_all {l : List (Str × Py F)} (h : ∀ e ∈ l, Plain e.2) : kept l = l := by
  rw [kept, List.filter_eq_self]
  intro e he
  rw [plain_not_method (h e he)]; rfl

theorem map_keys {α β : Type} (f : α → β) (l : List (Str × α)) : (l.map (fun e => (e.1, f e.2))).map (·.1) = l.map (·.1) := by
  rw [List.map_map]; rfl

theorem proper_flatten (o : Py F) (h : Plain o) : Proper (flatten o) := by
  refine plain_induction (P := fun o => Proper (flatten o)) ?_ ?_ ?_ ?_ ?_ ?_ ?_ o h
  · exact trivial
  · exact fun _ => trivial
  · exact fun _ => trivial
  · exact fun _ => trivial
  · intro l hl
    show ProperItems (flattenItems l)
    induction l with
    | nil => exact trivial
    | cons v l ih => exact ⟨(hl v (List.mem_cons_self ..)).2, ih (fun w hw => hl w (List.mem_cons_of_mem _ hw))⟩
  · intro l hn hl
    show (List.map (·.1) (flattenPairs l)).Nodup ∧ ProperPairs (flattenPairs l)
    rw [flattenPairs_eq l (fun e he => (hl e he).1), map_keys, properPairs_iff]
    refine ⟨kept_nodup hn, fun e he => ?_⟩
    obtain ⟨d, hd, rfl⟩ := List.mem_map.1 he
    exact (hl d (kept_sub hd).1).2.2
  · intro c l hn hl
    show (List.map (·.1) ((tag, J.str c) :: flattenPairs l)).Nodup ∧ ProperPairs ((tag, J.str c) :: flattenPairs l)
    rw [flattenPairs_eq l (fun e he => (hl e he).1), List.map_cons, map_keys, List.nodup_cons, ProperPairs, properPairs_iff]
    refine ⟨⟨fun ht => ?_, kept_nodup hn⟩, trivial, fun e he => ?_⟩
    · obtain ⟨d, hd, h1⟩ := List.mem_map.1 ht
      have := (hl d (kept_sub hd).1).1
      rw [h1] at this
      exact absurd this (by show ¬ reserved tag = false; decide)
    · obtain ⟨d, hd, rfl⟩ := List.mem_map.1 he
      exact (kept_plain (P := fun o => Proper (flatten o)) hl d hd).2.2

/-- Leaving entries out of a sorted list. -/
theorem filter_insertKey {α : Type} (p : Str × α → Bool) (e : Str × α) {l : List (Str × α)} (h : KeySorted l) (he : p e = false) :
    (insertKey e l).filter p = l.filter p := by
  induction l with
  | nil => simp [insertKey, he]
  | cons d l ih =>
    simp only [insertKey]
    by_cases hd : strLe e.1 d.1 = true
    · rw [if_pos hd, List.filter_cons, he]; rfl
    · rw [if_neg hd, List.filter_cons, List.filter_cons, ih (List.pairwise_cons.1 h).2]

theorem restore_sorted_flatten (o : Py F) (h : Plain o) : restore (sorted (flatten o)) = canon o := by
  refine plain_induction (P := fun o => restore (sorted (flatten o)) = canon o) ?_ ?_ ?_ ?_ ?_ ?_ ?_ o h
  · rfl
  · exact fun _ => rfl
  · exact fun _ => rfl
  · exact fun _ => rfl
  · intro l hl
    show Py.list (restoreItems (sortedItems (flattenItems l))) = Py.list (canonItems l)
    congr 1
    induction l with
    | nil => rfl
    | cons v l ih =>
      show restore (sorted (flatten v)) :: restoreItems (sortedItems (flattenItems l)) = canon v :: canonItems l
      rw [(hl v (List.mem_cons_self ..)).2, ih (fun w hw => hl w (List.mem_cons_of_mem _ hw))]
  · intro l hn hl
    have hk : ∀ e ∈ kept l, reserved e.1 = false ∧ Plain e.2 ∧ restore (sorted (flatten e.2)) = canon e.2 := fun e he => hl e (kept_sub he).1
    show (match tagOf (sortKeys (sortedPairs (flattenPairs l))) with
      | some cls => Py.inst cls (restoreAttrs (sortKeys (sortedPairs (flattenPairs l))))
      | none => Py.dict (restorePairs (sortKeys (sortedPairs (flattenPairs l))))) = Py.dict (sortKeys (canonPairs l))
    have ht : tagOf (sortKeys (sortedPairs (flattenPairs l))) = none := by
      unfold tagOf
      have : (sortKeys (sortedPairs (flattenPairs l))).lookup tag = none := by
        rw [lookup_none, ((sortKeys_perm _).map _).mem_iff, sortedPairs_eq, map_keys, flattenPairs_eq l (fun e he => (hl e he).1), map_keys]
        intro ht
        obtain ⟨d, hd, h1⟩ := List.mem_map.1 ht
        have := (hk d hd).1
        rw [h1] at this
        exact absurd this (by decide)
      rw [this]
    rw [ht]
    simp only
    rw [restorePairs_eq, ← sortKeys_map, sortedPairs_eq, flattenPairs_eq l (fun e he => (hl e he).1), canonPairs_eq]
    congr 2
    rw [List.map_map, List.map_map]
    exact List.map_congr_left (fun e he => by
      show (e.1, restore (sorted (flatten e.2))) = (e.1, canon e.2)
      rw [(hk e he).2.2])
  · intro c l hn hl
    have hk := kept_plain (P := fun o => restore (sorted (flatten o)) = canon o) hl
    show (match tagOf (sortKeys (sortedPairs ((tag, J.str c) :: flattenPairs l))) with
      | some cls => Py.inst cls (restoreAttrs (sortKeys (sortedPairs ((tag, J.str c) :: flattenPairs l))))
      | none => Py.dict (restorePairs (sortKeys (sortedPairs ((tag, J.str c) :: flattenPairs l))))) = Py.inst c (sortKeys (canonPairs l))
    have hfl := flattenPairs_eq l (fun e he => (hl e he).1)
    have hns : ((sortedPairs ((tag, J.str c) :: flattenPairs l)).map (·.1)).Nodup := by
      rw [sortedPairs_keys]
      exact (proper_flatten (.inst c l) (by rw [Plain, plainAttrs_iff]; exact ⟨hn, fun e he => ⟨(hl e he).1, (hl e he).2.imp id And.left⟩⟩)).1
    have ht : tagOf (sortKeys (sortedPairs ((tag, J.str c) :: flattenPairs l))) = some c := by
      unfold tagOf
      have : (sortKeys (sortedPairs ((tag, J.str c) :: flattenPairs l))).lookup tag = some (.str c) := by
        rw [← lookup_perm (sortKeys_perm _).symm hns]
        rfl
      rw [this]
    rw [ht]
    simp only
    rw [restoreAttrs_eq]
    have hfi : (sortKeys (sortedPairs ((tag, J.str c) :: flattenPairs l))).filter (fun e => !reserved e.1) = sortKeys (sortedPairs (flattenPairs l)) := by
      show (insertKey (tag, J.str c) (sortKeys (sortedPairs (flattenPairs l)))).filter _ = _
      rw [filter_insertKey _ _ (sortKeys_sorted _) (by show (!reserved tag) = false; decide), List.filter_eq_self]
      intro e he
      have h1 : e.1 ∈ (sortedPairs (flattenPairs l)).map (·.1) := List.mem_map.2 ⟨e, (sortKeys_perm _).mem_iff.1 he, rfl⟩
      rw [sortedPairs_eq, map_keys, hfl, map_keys] at h1
      obtain ⟨d, hd, h1⟩ := List.mem_map.1 h1
      rw [← h1, (hk d hd).1]; rfl
    rw [hfi, ← sortKeys_map, sortedPairs_eq, hfl, canonPairs_eq]
    congr 2
    rw [List.map_map, List.map_map]
    exact List.map_congr_left (fun e he => by
      show (e.1, restore (sorted (flatten e.2))) = (e.1, canon e.2)
      rw [(hk e he).2.2])

/-- Reading a written document, before `_init`. -/
theorem read_dumps (N : Numbers F) (o : Py F) (h : Plain o) : read N (dumps N.toFloats (flatten o)) = init N (canon o) := by
  unfold read
  rw [loads_dumps N.toFloats (flatten o) (proper_flatten o h)]
  show init N (restore (sorted (flatten o))) = init N (canon o)
  rw [restore_sorted_flatten o h]

/-! ## The parts of the object that is read -/

/-- A value that is not a bound method. -/
def datum : Option (Py F) → Option (Py F)
  | some v => if isMethod v then none else some v
  | none => none

theorem lookup_kept {l : List (Str × Py F)} (hn : (l.map (·.1)).Nodup) (k : Str) : (kept l).lookup k = datum (l.lookup k) := by
  refine Option.ext fun v => ?_
  rw [lookup_iff (kept_nodup hn), kept, List.mem_filter, ← lookup_iff hn]
  cases hl : l.lookup k with
  | none => simp [datum]
  | some w =>
    simp only [datum]
    by_cases hw : isMethod w = true
    · simp only [hw, if_true]
      constructor
      · rintro ⟨h1, h2⟩; cases h1; rw [hw] at h2; cases h2
      · intro h; cases h
    · rw [Bool.not_eq_true] at hw
      simp only [hw, Bool.false_eq_true, if_false]
      constructor
      · exact fun h => h.1
      · intro h; cases h; exact ⟨rfl, by rw [hw]; rfl⟩

theorem lookup_canon {l : List (Str × Py F)} (hn : (l.map (·.1)).Nodup) (k : Str) : (sortKeys (canonPairs l)).lookup k = (datum (l.lookup k)).map canon := by
  have hc : ((canonPairs l).map (·.1)).Nodup := by rw [canonPairs_eq, map_keys]; exact kept_nodup hn
  rw [← lookup_perm (sortKeys_perm _).symm hc, canonPairs_eq, lookup_map, lookup_kept hn]

theorem canonItems_eq (l : List (Py F)) : canonItems l = l.map canon := by
  induction l with
  | nil => rfl
  | cons v l ih => rw [canonItems, List.map_cons, ih]

theorem child_canon (s : Step) {o : Py F} (h : Plain o) : child s (canon o) = (datum (child s o)).map canon := by
  cases o with
  | list l =>
    rw [Plain, plainItems_iff] at h
    cases s with
    | key k => rfl
    | pos i =>
      show (canonItems l)[i]? = (datum l[i]?).map canon
      rw [canonItems_eq, List.getElem?_map]
      cases hi : l[i]? with
      | none => rfl
      | some v =>
        have hv := h v (List.mem_of_getElem? hi)
        simp only [datum, plain_not_method hv, Bool.false_eq_true, if_false]
  | dict l =>
    cases s with
    | key k => exact lookup_canon h.1 k
    | pos i => rfl
  | inst c l =>
    cases s with
    | key k => exact lookup_canon h.1 k
    | pos i => rfl
  | method m => exact h.elim
  | none => cases s <;> rfl
  | bool b => cases s <;> rfl
  | num b => cases s <;> rfl
  | str b => cases s <;> rfl

theorem child_plain {s : Step} {o v : Py F} (h : Plain o) (hv : child s o = some v) : isMethod v = true ∨ Plain v := by
  cases o with
  | list l =>
    rw [Plain, plainItems_iff] at h
    cases s with
    | key k => cases hv
    | pos i => exact Or.inr (h v (List.mem_of_getElem? hv))
  | dict l =>
    rw [Plain, plainPairs_iff] at h
    cases s with
    | key k => exact Or.inr (h.2 _ (mem_of_lookup hv)).2
    | pos i => cases hv
  | inst c l =>
    rw [Plain, plainAttrs_iff] at h
    cases s with
    | key k => exact (h.2 _ (mem_of_lookup hv)).2.imp (isMethod_iff v).2 id
    | pos i => cases hv
  | method m => exact h.elim
  | none => cases s <;> cases hv
  | bool b => cases s <;> cases hv
  | num b => cases s <;> cases hv
  | str b => cases s <;> cases hv

theorem look_method (p : List Step) {v : Py F} (h : isMethod v = true) : look p v = none := by
  obtain ⟨m, rfl⟩ := (isMethod_iff v).1 h
  cases p with
  | nil => rfl
  | cons s p => cases s <;> rfl

theorem face_canon {o : Py F} (h : Plain o) : face (canon o) = face o := by
  cases o with
  | list l => show some (Face.list (canonItems l).length) = some (Face.list l.length); rw [canonItems_eq, List.length_map]
  | method m => exact h.elim
  | _ => rfl

/-- Nothing that is seen in the object is changed. -/
theorem look_canon (p : List Step) (o : Py F) (h : Plain o) : look p (canon o) = look p o := by
  induction p generalizing o with
  | nil => exact face_canon h
  | cons s p ih =>
    show (match child s (canon o) with | some v => look p v | none => none) = (match child s o with | some v => look p v | none => none)
    rw [child_canon s h]
    cases hc : child s o with
    | none => rfl
    | some v =>
      rcases child_plain h hc with hm | hp
      · simp only [datum, hm, if_true, Option.map_none]
        exact (look_method p hm).symm
      · simp only [datum, plain_not_method hp, Bool.false_eq_true, if_false, Option.map_some]
        exact ih v hp

/-! ## Canonical objects are plain, and are written the same -/

theorem mem_canonPairs {l : List (Str × Py F)} {e : Str × Py F} (h : e ∈ sortKeys (canonPairs l)) : ∃ d ∈ kept l, e = (d.1, canon d.2) := by
  rw [(sortKeys_perm _).mem_iff, canonPairs_eq] at h
  obtain ⟨d, hd, h⟩ := List.mem_map.1 h
  exact ⟨d, hd, h.symm⟩

theorem canonKeys_nodup {l : List (Str × Py F)} (hn : (l.map (·.1)).Nodup) : ((sortKeys (canonPairs l)).map (·.1)).Nodup := by
  rw [((sortKeys_perm _).map _).nodup_iff, canonPairs_eq, map_keys]
  exact kept_nodup hn

theorem plain_canon (o : Py F) (h : Plain o) : Plain (canon o) := by
  refine plain_induction (P := fun o => Plain (canon o)) ?_ ?_ ?_ ?_ ?_ ?_ ?_ o h
  · exact trivial
  · exact fun _ => trivial
  · exact fun _ => trivial
  · exact fun _ => trivial
  · intro l hl
    show PlainItems (canonItems l)
    rw [canonItems_eq, plainItems_iff]
    intro v hv
    obtain ⟨w, hw, rfl⟩ := List.mem_map.1 hv
    exact (hl w hw).2
  · intro l hn hl
    refine ⟨canonKeys_nodup hn, (plainPairs_iff _).2 fun e he => ?_⟩
    obtain ⟨d, hd, rfl⟩ := mem_canonPairs he
    exact ⟨(hl d (kept_sub hd).1).1, (hl d (kept_sub hd).1).2.2⟩
  · intro c l hn hl
    refine ⟨canonKeys_nodup hn, (plainAttrs_iff _).2 fun e he => ?_⟩
    obtain ⟨d, hd, rfl⟩ := mem_canonPairs he
    have := kept_plain (P := fun o => Plain (canon o)) hl d hd
    exact ⟨this.1, Or.inr this.2.2⟩

theorem kept_canon (l : List (Str × Py F)) : kept (sortKeys (canonPairs l)) = sortKeys (canonPairs l) := by
  rw [kept, List.filter_eq_self]
  intro e he
  obtain ⟨d, hd, rfl⟩ := mem_canonPairs he
  show (!isMethod (canon d.2)) = true
  rw [canon_isMethod, (kept_sub hd).2]; rfl

/-- The entries of the canonical object are written as those of the object. -/
theorem sorted_flattenPairs {l : List (Str × Py F)} (hr : ∀ e ∈ l, reserved e.1 = false) (hc : ∀ e ∈ kept l, sorted (flatten (canon e.2)) = sorted (flatten e.2)) :
    (sortedPairs (flattenPairs (sortKeys (canonPairs l)))).Perm (sortedPairs (flattenPairs l)) := by
  have hr' : ∀ e ∈ sortKeys (canonPairs l), reserved e.1 = false := by
    intro e he
    obtain ⟨d, hd, rfl⟩ := mem_canonPairs he
    exact hr d (kept_sub hd).1
  rw [flattenPairs_eq _ hr', kept_canon, flattenPairs_eq l hr, sortedPairs_eq, sortedPairs_eq, List.map_map, List.map_map]
  refine ((sortKeys_perm _).map _).trans ?_
  rw [canonPairs_eq, List.map_map]
  refine List.Perm.of_eq (List.map_congr_left fun e he => ?_)
  show (e.1, sorted (flatten (canon e.2))) = (e.1, sorted (flatten e.2))
  rw [hc e he]

theorem sorted_flatten_canon (o : Py F) (h : Plain o) : sorted (flatten (canon o)) = sorted (flatten o) := by
  refine plain_induction (P := fun o => sorted (flatten (canon o)) = sorted (flatten o)) ?_ ?_ ?_ ?_ ?_ ?_ ?_ o h
  · rfl
  · exact fun _ => rfl
  · exact fun _ => rfl
  · exact fun _ => rfl
  · intro l hl
    show J.arr (sortedItems (flattenItems (canonItems l))) = J.arr (sortedItems (flattenItems l))
    congr 1
    induction l with
    | nil => rfl
    | cons v l ih =>
      show sorted (flatten (canon v)) :: sortedItems (flattenItems (canonItems l)) = sorted (flatten v) :: sortedItems (flattenItems l)
      rw [(hl v (List.mem_cons_self ..)).2, ih (fun w hw => hl w (List.mem_cons_of_mem _ hw))]
  · intro l hn hl
    have hp := sorted_flattenPairs (l := l) (fun e he => (hl e he).1) (fun e he => (hl e (kept_sub he).1).2.2)
    show J.obj (sortKeys (sortedPairs (flattenPairs (sortKeys (canonPairs l))))) = J.obj (sortKeys (sortedPairs (flattenPairs l)))
    congr 1
    refine sortKeys_eq_of_perm hp ((hp.map _).nodup_iff.2 ?_)
    rw [sortedPairs_eq, map_keys, flattenPairs_eq l (fun e he => (hl e he).1), map_keys]
    exact kept_nodup hn
  · intro c l hn hl
    have hk := kept_plain (P := fun o => sorted (flatten (canon o)) = sorted (flatten o)) hl
    have hp := sorted_flattenPairs (l := l) (fun e he => (hl e he).1) (fun e he => (hk e he).2.2)
    show J.obj (sortKeys (sortedPairs ((tag, J.str c) :: flattenPairs (sortKeys (canonPairs l))))) = J.obj (sortKeys (sortedPairs ((tag, J.str c) :: flattenPairs l)))
    congr 1
    have hp' : (sortedPairs ((tag, J.str c) :: flattenPairs (sortKeys (canonPairs l)))).Perm (sortedPairs ((tag, J.str c) :: flattenPairs l)) := by
      simp only [sortedPairs]
      exact hp.cons _
    refine sortKeys_eq_of_perm hp' ((hp'.map _).nodup_iff.2 ?_)
    rw [sortedPairs_keys]
    exact (proper_flatten (.inst c l) (by rw [Plain, plainAttrs_iff]; exact ⟨hn, fun e he => ⟨(hl e he).1, (hl e he).2.imp id And.left⟩⟩)).1

/-! ## Views -/

theorem cls_canon (o : Py F) : cls (canon o) = cls o := by cases o <;> rfl

theorem inst_of_cls {o : Py F} {c : Str} (h : cls o = some c) : ∃ l, o = .inst c l := by
  cases o with
  | inst d l => cases h; exact ⟨l, rfl⟩
  | _ => cases h

theorem attr_canon (k : String) {o : Py F} (h : Plain o) : attr k (canon o) = (datum (attr k o)).map canon := by
  cases o with
  | inst c l => exact lookup_canon h.1 k.toList
  | _ => rfl

theorem attr_set (k k' : String) (v : Py F) (c : Str) (l : List (Str × Py F)) :
    attr k (setAttr k' v (.inst c l)) = if k.toList = k'.toList then some v else attr k (.inst c l) := lookup_put _ _ _ _

theorem asNum_canon (x : Option (Py F)) : asNum ((datum x).map canon) = asNum x := by
  cases x with
  | none => rfl
  | some v => cases v <;> rfl

theorem asStr_canon (x : Option (Py F)) : asStr ((datum x).map canon) = asStr x := by
  cases x with
  | none => rfl
  | some v => cases v <;> rfl

theorem asRef_canon (x : Option (Py F)) : asRef ((datum x).map canon) = asRef x := by
  cases x with
  | none => rfl
  | some v => cases v <;> rfl

theorem asDict_canon (x : Option (Py F)) : asDict ((datum x).map canon) = (asDict x).map (fun l => sortKeys (canonPairs l)) := by
  cases x with
  | none => rfl
  | some v => cases v <;> rfl

theorem asNums_canon (l : List (Py F)) : asNums (canonItems l) = asNums l := by
  induction l with
  | nil => rfl
  | cons v l ih =>
    cases v with
    | num x => simp only [canonItems, canon, asNums]; rw [ih]
    | _ => rfl

theorem asNumList_canon (x : Option (Py F)) : asNumList ((datum x).map canon) = asNumList x := by
  cases x with
  | none => rfl
  | some v =>
    cases v with
    | list l => exact asNums_canon l
    | _ => rfl

theorem recView_canon {o : Py F} (h : Plain o) : recView (canon o) = recView o := by
  unfold recView
  rw [cls_canon, attr_canon _ h, attr_canon _ h, attr_canon _ h, attr_canon _ h, asNum_canon, asNum_canon, asNumList_canon, asNumList_canon]

/-- All of a list, or nothing. -/
def allSome {α β : Type} (g : α → Option β) : List α → Option (List β)
  | [] => some []
  | a :: l => match g a, allSome g l with
    | some b, some l' => some (b :: l')
    | _, _ => none

theorem allSome_cons {α β : Type} {g : α → Option β} {a : α} {l : List α} {v : List β} :
    allSome g (a :: l) = some v ↔ ∃ b w, g a = some b ∧ allSome g l = some w ∧ v = b :: w := by
  simp only [allSome]
  cases h1 : g a with
  | none => simp
  | some b =>
    cases h2 : allSome g l with
    | none => simp
    | some w => simp [eq_comm]

theorem allSome_perm {α β : Type} {g : α → Option β} {l l' : List α} (hp : l.Perm l') {v : List β} (h : allSome g l = some v) : ∃ v', allSome g l' = some v' ∧ v.Perm v' := by
  induction hp generalizing v with
  | nil => exact ⟨v, h, List.Perm.refl _⟩
  | cons a hp ih =>
    obtain ⟨b, w, h1, h2, rfl⟩ := allSome_cons.1 h
    obtain ⟨w', h3, h4⟩ := ih h2
    exact ⟨b :: w', allSome_cons.2 ⟨b, w', h1, h3, rfl⟩, h4.cons b⟩
  | swap a b l =>
    obtain ⟨x, w, h1, h2, rfl⟩ := allSome_cons.1 h
    obtain ⟨y, u, h3, h4, rfl⟩ := allSome_cons.1 h2
    exact ⟨y :: x :: u, allSome_cons.2 ⟨y, _, h3, allSome_cons.2 ⟨x, u, h1, h4, rfl⟩, rfl⟩, List.Perm.swap ..⟩
  | trans _ _ ih1 ih2 =>
    obtain ⟨w, h1, h2⟩ := ih1 h
    obtain ⟨u, h3, h4⟩ := ih2 h1
    exact ⟨u, h3, h2.trans h4⟩

theorem allSome_congr {α β : Type} {g g' : α → Option β} {l : List α} (h : ∀ a ∈ l, g a = g' a) : allSome g l = allSome g' l := by
  induction l with
  | nil => rfl
  | cons a l ih => simp only [allSome, h a (List.mem_cons_self ..), ih (fun b hb => h b (List.mem_cons_of_mem _ hb))]

theorem allSome_map {α β γ : Type} (g : β → Option γ) (f : α → β) (l : List α) : allSome g (l.map f) = allSome (fun a => g (f a)) l := by
  induction l with
  | nil => rfl
  | cons a l ih => simp only [List.map_cons, allSome, ih]

/-- An entry of `_Cp_records`. -/
def recEntry (N : Numbers F) (e : Str × Py F) : Option (F × RecObj F) := match N.float e.1, recView e.2 with
  | some x, some r => if N.repr x = e.1 then some (x, r) else none
  | _, _ => none

theorem recViews_eq (N : Numbers F) (l : List (Str × Py F)) : recViews N l = allSome (recEntry N) l := by
  induction l with
  | nil => rfl
  | cons e l ih =>
    obtain ⟨k, o⟩ := e
    simp only [recViews, allSome, recEntry, ih]
    cases N.float k with
    | none => rfl
    | some x =>
      cases recView o with
      | none => rfl
      | some r =>
        cases allSome (recEntry N) l with
        | none => by_cases h : N.repr x = k <;> simp [h]
        | some w => by_cases h : N.repr x = k <;> simp [h]

theorem canonPairs_plain {l : List (Str × Py F)} (h : ∀ e ∈ l, Plain e.2) : canonPairs l = l.map (fun e => (e.1, canon e.2)) := by
  rw [canonPairs_eq, kept_all h]

theorem recViews_canon (N : Numbers F) {l : List (Str × Py F)} (hl : ∀ e ∈ l, Plain e.2) {v : List (F × RecObj F)} (h : recViews N l = some v) :
    ∃ v', recViews N (sortKeys (canonPairs l)) = some v' ∧ v.Perm v' := by
  rw [recViews_eq] at h ⊢
  have h1 : allSome (recEntry N) (canonPairs l) = some v := by
    rw [canonPairs_plain hl, allSome_map, ← h]
    refine allSome_congr fun e he => ?_
    show recEntry N (e.1, canon e.2) = recEntry N e
    unfold recEntry
    simp only [recView_canon (hl e he)]
  exact allSome_perm (sortKeys_perm _).symm h1

theorem phaseView_iff (N : Numbers F) (o : Py F) (p : PhaseObj F) : phaseView N o = some p ↔
    cls o = some phaseClass ∧ asStr (attr "name" o) = some p.name ∧ asStr (attr "symbol" o) = some p.symbol ∧ asNum (attr "Tref" o) = some p.Tref ∧
    asNum (attr "DHref" o) = some p.DHref ∧ asNum (attr "Sref" o) = some p.Sref ∧ magView o = some p.mag ∧
    (asDict (attr "_Cp_records" o)).bind (recViews N) = some p.records := by
  obtain ⟨n, s, t, d, e, m, l⟩ := p
  unfold phaseView
  generalize cls o = x1, asStr (attr "name" o) = x2, asStr (attr "symbol" o) = x3, asNum (attr "Tref" o) = x4, asNum (attr "DHref" o) = x5, asNum (attr "Sref" o) = x6,
    magView o = x7, (asDict (attr "_Cp_records" o)).bind (recViews N) = x8
  constructor
  · intro h
    split at h
    · split at h
      · rename_i hc; subst hc; cases h; exact ⟨rfl, rfl, rfl, rfl, rfl, rfl, rfl, rfl⟩
      · cases h
    · cases h
  · rintro ⟨rfl, rfl, rfl, rfl, rfl, rfl, rfl, rfl⟩
    simp

theorem compView_iff (N : Numbers F) (o : Py F) (c : CompObj F) : compView N o = some c ↔
    cls o = some compoundClass ∧ asStr (attr "formula" o) = some c.formula ∧ asNum (attr "molar_mass" o) = some c.molarMass ∧ asRef (attr "reference" o) = some c.reference ∧
    (asDict (attr "_phases" o)).bind (phaseViews N) = some c.phases := by
  obtain ⟨f, m, r, l⟩ := c
  unfold compView
  generalize cls o = x1, asStr (attr "formula" o) = x2, asNum (attr "molar_mass" o) = x3, asRef (attr "reference" o) = x4, (asDict (attr "_phases" o)).bind (phaseViews N) = x5
  constructor
  · intro h
    split at h
    · split at h
      · rename_i hc; subst hc; cases h; exact ⟨rfl, rfl, rfl, rfl, rfl⟩
      · cases h
    · cases h
  · rintro ⟨rfl, rfl, rfl, rfl, rfl⟩
    simp

end Auxi.Persist.Proofs
