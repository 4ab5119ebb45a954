import Verif.Proofs.Json

/-!
# Sorting by keys
-/
namespace Auxi.Json.Proofs
open Auxi Auxi.Json

theorem toNat_inj {a b : Char} (h : a.toNat = b.toNat) : a = b := by
  have h1 := congrArg Char.ofNat h
  rwa [ofNat_toNat, ofNat_toNat] at h1

theorem strLe_refl (s : Str) : strLe s s = true := by
  induction s with
  | nil => rfl
  | cons a s ih => simp only [strLe]; rw [if_neg (Nat.lt_irrefl _), if_neg (Nat.lt_irrefl _)]; exact ih

theorem strLe_total (s t : Str) : strLe s t = true ∨ strLe t s = true := by
  induction s generalizing t with
  | nil => exact Or.inl rfl
  | cons a s ih =>
    cases t with
    | nil => exact Or.inr rfl
    | cons b t =>
      simp only [strLe]
      by_cases h1 : a.toNat < b.toNat
      · exact Or.inl (by rw [if_pos h1])
      · by_cases h2 : b.toNat < a.toNat
        · exact Or.inr (by rw [if_pos h2])
        · rw [if_neg h1, if_neg h2, if_neg h2, if_neg h1]; exact ih t

theorem strLe_antisymm {s t : Str} (h : strLe s t = true) (h' : strLe t s = true) : s = t := by
  induction s generalizing t with
  | nil => cases t with
    | nil => rfl
    | cons b t => cases h'
  | cons a s ih =>
    cases t with
    | nil => cases h
    | cons b t =>
      simp only [strLe] at h h'
      by_cases h1 : a.toNat < b.toNat
      · rw [if_neg (by omega), if_pos h1] at h'; cases h'
      · by_cases h2 : b.toNat < a.toNat
        · rw [if_neg h1, if_pos h2] at h; cases h
        · rw [if_neg h1, if_neg h2] at h
          rw [if_neg h2, if_neg h1] at h'
          rw [ih h h', toNat_inj (by omega : a.toNat = b.toNat)]

theorem strLe_trans {s t u : Str} (h : strLe s t = true) (h' : strLe t u = true) : strLe s u = true := by
  induction s generalizing t u with
  | nil => rfl
  | cons a s ih =>
    cases t with
    | nil => cases h
    | cons b t =>
      cases u with
      | nil => cases h'
      | cons c u =>
        simp only [strLe] at h h' ⊢
        by_cases h1 : a.toNat < b.toNat
        · by_cases h3 : b.toNat < c.toNat
          · rw [if_pos (by omega)]
          · by_cases h4 : c.toNat < b.toNat
            · rw [if_neg h3, if_pos h4] at h'; cases h'
            · rw [if_pos (by omega)]
        · by_cases h2 : b.toNat < a.toNat
          · rw [if_neg h1, if_pos h2] at h; cases h
          · rw [if_neg h1, if_neg h2] at h
            by_cases h3 : b.toNat < c.toNat
            · rw [if_pos (by omega)]
            · by_cases h4 : c.toNat < b.toNat
              · rw [if_neg h3, if_pos h4] at h'; cases h'
              · rw [if_neg h3, if_neg h4] at h'
                rw [if_neg (by omega), if_neg (by omega)]
                exact ih h h'

/-- The list is sorted by key. -/
abbrev KeySorted {α : Type} (l : List (Str × α)) : Prop := l.Pairwise (fun a b => strLe a.1 b.1 = true)

theorem insertKey_sorted {α : Type} (e : Str × α) {l : List (Str × α)} (h : KeySorted l) : KeySorted (insertKey e l) := by
  induction l with
  | nil => exact List.pairwise_singleton _ _
  | cons d l ih =>
    simp only [insertKey]
    have hp := List.pairwise_cons.1 h
    by_cases hd : strLe e.1 d.1 = true
    · rw [if_pos hd]
      refine List.pairwise_cons.2 ⟨fun x hx => ?_, h⟩
      rcases List.mem_cons.1 hx with rfl | hx
      · exact hd
      · exact strLe_trans hd (hp.1 x hx)
    · rw [if_neg hd]
      refine List.pairwise_cons.2 ⟨fun x hx => ?_, ih hp.2⟩
      rcases List.mem_cons.1 ((insertKey_perm e l).mem_iff.1 hx) with rfl | hx
      · rcases strLe_total x.1 d.1 with h1 | h1
        · exact absurd h1 hd
        · exact h1
      · exact hp.1 x hx

theorem sortKeys_sorted {α : Type} (l : List (Str × α)) : KeySorted (sortKeys l) := by
  induction l with
  | nil => exact List.Pairwise.nil
  | cons e l ih => exact insertKey_sorted e ih

/-- Two sorted arrangements of entries with different keys are equal. -/
theorem sorted_unique {α : Type} {l l' : List (Str × α)} (hp : l.Perm l') (hn : (l.map (·.1)).Nodup) (h : KeySorted l) (h' : KeySorted l') : l = l' := by
  induction l generalizing l' with
  | nil => rw [List.nil_perm.1 hp]
  | cons e l ih =>
    cases l' with
    | nil => exact absurd hp.length_eq (by simp)
    | cons d l' =>
      have hs := List.pairwise_cons.1 h
      have hs' := List.pairwise_cons.1 h'
      have hn' : ((d :: l').map (·.1)).Nodup := (hp.map _).nodup_iff.1 hn
      have key : e.1 = d.1 := by
        have h1 : e ∈ d :: l' := hp.subset (List.mem_cons_self ..)
        have h2 : d ∈ e :: l := hp.symm.subset (List.mem_cons_self ..)
        rcases List.mem_cons.1 h1 with rfl | h1
        · rfl
        · rcases List.mem_cons.1 h2 with h3 | h2
          · rw [h3]
          · exact strLe_antisymm (hs.1 d h2) (hs'.1 e h1)
      have hed : e = d := by
        have h1 : e ∈ d :: l' := hp.subset (List.mem_cons_self ..)
        rcases List.mem_cons.1 h1 with h1 | h1
        · exact h1
        · rw [List.map_cons, List.nodup_cons] at hn'
          exact absurd (List.mem_map.2 ⟨e, h1, key⟩) hn'.1
      subst hed
      rw [List.map_cons, List.nodup_cons] at hn
      rw [ih (List.Perm.cons_inv hp) hn.2 hs.2 hs'.2]

theorem sortKeys_eq_of_perm {α : Type} {l l' : List (Str × α)} (hp : l.Perm l') (hn : (l.map (·.1)).Nodup) : sortKeys l = sortKeys l' :=
  sorted_unique ((sortKeys_perm l).trans (hp.trans (sortKeys_perm l').symm)) (((sortKeys_perm l).map _).nodup_iff.2 hn) (sortKeys_sorted l) (sortKeys_sorted l')

theorem sortKeys_idem {α : Type} {l : List (Str × α)} (h : (l.map (·.1)).Nodup) : sortKeys (sortKeys l) = sortKeys l :=
  (sortKeys_eq_of_perm (sortKeys_perm l).symm h).symm

theorem insertKey_map {α β : Type} (f : α → β) (e : Str × α) (l : List (Str × α)) :
    insertKey (e.1, f e.2) (l.map (fun d => (d.1, f d.2))) = (insertKey e l).map (fun d => (d.1, f d.2)) := by
  induction l with
  | nil => rfl
  | cons d l ih =>
    simp only [List.map_cons, insertKey]
    by_cases h : strLe e.1 d.1 = true
    · simp only [if_pos h, List.map_cons]
    · simp only [if_neg h, List.map_cons]; rw [ih]

theorem sortKeys_map {α β : Type} (f : α → β) (l : List (Str × α)) : sortKeys (l.map (fun d => (d.1, f d.2))) = (sortKeys l).map (fun d => (d.1, f d.2)) := by
  induction l with
  | nil => rfl
  | cons e l ih => rw [List.map_cons, sortKeys, ih, sortKeys, insertKey_map]

/-- An entry of a dictionary is found by its key. -/
theorem lookup_of_mem {α : Type} {l : List (Str × α)} (hn : (l.map (·.1)).Nodup) {k : Str} {v : α} (h : (k, v) ∈ l) : l.lookup k = some v := by
  induction l with
  | nil => nomatch h
  | cons e l ih =>
    rw [List.map_cons, List.nodup_cons] at hn
    obtain ⟨k', w⟩ := e
    rw [List.lookup_cons]
    rcases List.mem_cons.1 h with h | h
    · cases h; simp
    · have : k ≠ k' := fun hk => hn.1 (List.mem_map.2 ⟨(k, v), h, hk⟩)
      rw [beq_false_of_ne this]
      exact ih hn.2 h

theorem mem_of_lookup {α : Type} {l : List (Str × α)} {k : Str} {v : α} (h : l.lookup k = some v) : (k, v) ∈ l := by
  induction l with
  | nil => cases h
  | cons e l ih =>
    obtain ⟨k', w⟩ := e
    rw [List.lookup_cons] at h
    by_cases hk : k = k'
    · subst hk
      rw [beq_self_eq_true] at h
      cases h
      exact List.mem_cons_self ..
    · rw [beq_false_of_ne hk] at h
      exact List.mem_cons_of_mem _ (ih h)

theorem lookup_iff {α : Type} {l : List (Str × α)} (hn : (l.map (·.1)).Nodup) {k : Str} {v : α} : l.lookup k = some v ↔ (k, v) ∈ l := ⟨mem_of_lookup, lookup_of_mem hn⟩

theorem lookup_perm {α : Type} {l l' : List (Str × α)} (hp : l.Perm l') (hn : (l.map (·.1)).Nodup) (k : Str) : l.lookup k = l'.lookup k := by
  have hn' := (hp.map (·.1)).nodup_iff.1 hn
  refine Option.ext fun v => ?_
  rw [lookup_iff hn, lookup_iff hn']
  exact hp.mem_iff

theorem lookup_map {α β : Type} (f : α → β) (l : List (Str × α)) (k : Str) : (l.map (fun d => (d.1, f d.2))).lookup k = (l.lookup k).map f := by
  induction l with
  | nil => rfl
  | cons e l ih =>
    rw [List.map_cons, List.lookup_cons, List.lookup_cons, ih]
    by_cases hk : k = e.1
    · subst hk; simp
    · rw [beq_false_of_ne hk]

theorem lookup_none {α : Type} {l : List (Str × α)} {k : Str} : l.lookup k = none ↔ k ∉ l.map (·.1) := by
  induction l with
  | nil => simp
  | cons e l ih =>
    rw [List.lookup_cons, List.map_cons, List.mem_cons]
    by_cases hk : k = e.1
    · subst hk; simp
    · rw [beq_false_of_ne hk]
      simp only [hk, false_or]
      exact ih

theorem lookup_put {α : Type} (k k' : Str) (v : α) (l : List (Str × α)) : (put k v l).lookup k' = if k' = k then some v else l.lookup k' := by
  induction l with
  | nil =>
    simp only [put, List.lookup_cons, List.lookup_nil]
    by_cases h : k' = k
    · subst h; simp
    · rw [beq_false_of_ne h, if_neg h]
  | cons e l ih =>
    simp only [put]
    by_cases he : e.1 = k
    · rw [if_pos he, List.lookup_cons, List.lookup_cons]
      by_cases h : k' = k
      · subst h; simp
      · rw [beq_false_of_ne h, if_neg h, beq_false_of_ne (fun h' => h (h'.trans he))]
    · rw [if_neg he, List.lookup_cons, List.lookup_cons, ih]
      by_cases h : k' = e.1
      · rw [h]; simp only [beq_self_eq_true]; rw [if_neg he]
      · rw [beq_false_of_ne h]

/-- Storing what is there already changes nothing. -/
theorem put_same {α : Type} {k : Str} {v : α} {l : List (Str × α)} (h : l.lookup k = some v) : put k v l = l := by
  induction l with
  | nil => cases h
  | cons e l ih =>
    obtain ⟨k', w⟩ := e
    simp only [put]
    rw [List.lookup_cons] at h
    by_cases hk : k' = k
    · subst hk
      rw [beq_self_eq_true] at h
      cases h
      rw [if_pos rfl]
    · rw [beq_false_of_ne (Ne.symm hk)] at h
      rw [if_neg hk, ih h]

theorem put_keys {α : Type} (k : Str) (v : α) (l : List (Str × α)) (h : k ∈ l.map (·.1)) : (put k v l).map (·.1) = l.map (·.1) := by
  induction l with
  | nil => nomatch h
  | cons e l ih =>
    simp only [put]
    by_cases hk : e.1 = k
    · rw [if_pos hk, List.map_cons, List.map_cons, hk]
    · rw [if_neg hk, List.map_cons, List.map_cons, ih]
      rw [List.map_cons, List.mem_cons] at h
      rcases h with h | h
      · exact absurd h.symm hk
      · exact h

theorem put_nodup {α : Type} (k : Str) (v : α) (l : List (Str × α)) (h : (l.map (·.1)).Nodup) : ((put k v l).map (·.1)).Nodup := by
  by_cases hk : k ∈ l.map (·.1)
  · rw [put_keys k v l hk]; exact h
  · rw [put_new k v l hk, List.map_append, List.nodup_append]
    refine ⟨h, by simp, ?_⟩
    intro a ha b hb
    rw [List.map_cons, List.map_nil, List.mem_singleton] at hb
    subst hb
    exact fun hab => hk (hab ▸ ha)

end Auxi.Json.Proofs
