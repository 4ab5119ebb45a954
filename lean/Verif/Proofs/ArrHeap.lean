import Verif.Spec.ArrHeap
import Mathlib.Data.List.Basic
import Mathlib.Data.List.Nodup
import Mathlib.Algebra.Order.Field.Rat
import Mathlib.Tactic.Basic

/-! # Proofs for C119 and C120: arrays that are not shared -/
namespace Auxi.ArrHeap.Proofs
open Auxi Auxi.ArrHeap Auxi.ArrHeap.Spec

variable {I X α : Type}

/-! ## Heap operations -/

theorem read_alloc_old {h : Heap I X α} {l : List α} {a : Nat} (ha : a < h.arrays.length) : (h.alloc l).1.read a = h.read a := by
  simp only [Heap.read, Heap.alloc]; rw [List.getElem?_append_left ha]

theorem read_alloc_new (h : Heap I X α) (l : List α) : (h.alloc l).1.read h.arrays.length = l := by
  simp [Heap.read, Heap.alloc]

theorem read_write_same {h : Heap I X α} {l : List α} {a : Nat} (ha : a < h.arrays.length) : (h.write a l).read a = l := by
  simp [Heap.read, Heap.write, ha]

theorem read_write_ne {h : Heap I X α} {l : List α} {a b : Nat} (hab : a ≠ b) : (h.write a l).read b = h.read b := by
  simp only [Heap.read, Heap.write]; rw [List.getElem?_set_ne hab]

theorem write_read (h : Heap I X α) (a : Nat) : h.write a (h.read a) = h := by
  obtain ⟨m, p, l⟩ := h
  simp only [Heap.write, Heap.read]
  congr 1
  by_cases ha : a < l.length
  · rw [List.getElem?_eq_getElem ha]; simp
  · rw [List.set_eq_of_length_le (by omega)]

theorem write_write (h : Heap I X α) (a : Nat) (l k : List α) : (h.write a l).write a k = h.write a k := by
  simp [Heap.write]

/-- Lists that no package and no assay holds. -/
structure Fresh (h : Heap I X α) (a : Nat) : Prop where
  lt : a < h.arrays.length
  pkg : a ∉ pkgArrays h
  assay : a ∉ assayArrays h

/-- The second heap has the same objects with the same contents, and at least the lists of the first. -/
structure Same (h h' : Heap I X α) : Prop where
  mats : h'.mats = h.mats
  pkgs : h'.pkgs = h.pkgs
  len : h.arrays.length ≤ h'.arrays.length
  read : ∀ a, a ∈ pkgArrays h ∨ a ∈ assayArrays h → h'.read a = h.read a

theorem Same.refl (h : Heap I X α) : Same h h := ⟨rfl, rfl, le_refl _, fun _ _ => rfl⟩

theorem Same.arrays {h h' : Heap I X α} (s : Same h h') : pkgArrays h' = pkgArrays h ∧ assayArrays h' = assayArrays h := by
  constructor
  · unfold pkgArrays; rw [s.pkgs]
  · unfold assayArrays; rw [s.mats]

theorem Same.trans {h h' h'' : Heap I X α} (s : Same h h') (t : Same h' h'') : Same h h'' := by
  refine ⟨t.mats.trans s.mats, t.pkgs.trans s.pkgs, le_trans s.len t.len, fun a ha => ?_⟩
  rw [t.read a (by rw [s.arrays.1, s.arrays.2]; exact ha), s.read a ha]

theorem view_eq {h h' : Heap I X α} (hm : h'.mats = h.mats) (hr : ∀ a ∈ assayArrays h, h'.read a = h.read a) : (view h').mats = (view h).mats := by
  simp only [view, hm]
  apply List.map_congr_left
  intro o ho
  congr 1
  apply List.map_congr_left
  intro e he
  rw [hr]
  simp only [assayArrays, List.mem_flatMap, List.mem_map]
  exact ⟨o, ho, e, he, rfl⟩

theorem Same.view {h h' : Heap I X α} (s : Same h h') : Spec.view h' = Spec.view h := by
  have h1 := view_eq s.mats fun a ha => s.read a (Or.inr ha)
  have h2 : (Spec.view h').pkgs = (Spec.view h).pkgs := by
    simp only [Spec.view, s.pkgs]
    apply List.map_congr_left
    intro p hp
    rw [s.read _ (Or.inl (List.mem_map_of_mem hp))]
  cases hv : Spec.view h'; cases hw : Spec.view h
  rw [hv, hw] at h1 h2
  simp only at h1 h2
  rw [h1, h2]

theorem Same.sep {h h' : Heap I X α} (s : Same h h') (hs : Separate h) : Separate h' := by
  obtain ⟨e1, e2⟩ := s.arrays
  refine ⟨by rw [e1]; exact hs.own, by rw [e1, e2]; exact hs.apart, ?_, ?_, by rw [s.pkgs, s.mats]; exact hs.mats⟩
  · rw [e1]; exact fun a ha => lt_of_lt_of_le (hs.arrays a ha) s.len
  · rw [e2]; exact fun a ha => lt_of_lt_of_le (hs.assays a ha) s.len

theorem Same.fresh {h h' : Heap I X α} (s : Same h h') {a : Nat} (f : Fresh h a) : Fresh h' a := by
  obtain ⟨e1, e2⟩ := s.arrays
  exact ⟨lt_of_lt_of_le f.lt s.len, by rw [e1]; exact f.pkg, by rw [e2]; exact f.assay⟩

theorem same_alloc {h : Heap I X α} (hs : Separate h) (l : List α) : Same h (h.alloc l).1 := by
  refine ⟨rfl, rfl, by simp [Heap.alloc], fun a ha => read_alloc_old ?_⟩
  rcases ha with ha | ha
  exacts [hs.arrays a ha, hs.assays a ha]

theorem fresh_alloc {h : Heap I X α} (hs : Separate h) (l : List α) : Fresh (h.alloc l).1 h.arrays.length := by
  refine ⟨by simp [Heap.alloc], fun hh => ?_, fun hh => ?_⟩
  · exact absurd (hs.arrays _ hh) (lt_irrefl _)
  · exact absurd (hs.assays _ hh) (lt_irrefl _)

theorem same_write_fresh {h : Heap I X α} {a : Nat} (f : Fresh h a) (l : List α) : Same h (h.write a l) := by
  refine ⟨rfl, rfl, by simp [Heap.write], fun b hb => read_write_ne ?_⟩
  rintro rfl
  rcases hb with hb | hb
  exacts [f.pkg hb, f.assay hb]

/-! ## Registering, rebinding, writing -/

theorem register_sep {h : Heap I X α} (hs : Separate h) {p : PkgObj X} (f : Fresh h p.arr) (hm : p.mat < h.mats.length) : Separate (h.register p).1 := by
  have e : pkgArrays (h.register p).1 = pkgArrays h ++ [p.arr] := by simp [pkgArrays, Heap.register]
  have e2 : assayArrays (h.register p).1 = assayArrays h := rfl
  refine ⟨?_, ?_, ?_, hs.assays, ?_⟩
  · rw [e, List.nodup_append]
    refine ⟨hs.own, by simp, ?_⟩
    intro a ha b hb
    rw [List.mem_singleton] at hb
    rintro rfl
    subst hb
    exact f.pkg ha
  · rw [e, e2]
    intro a ha
    rcases List.mem_append.1 ha with ha | ha
    · exact hs.apart a ha
    · rw [List.mem_singleton] at ha; rw [ha]; exact f.assay
  · rw [e]
    intro a ha
    rcases List.mem_append.1 ha with ha | ha
    · exact hs.arrays a ha
    · rw [List.mem_singleton] at ha; rw [ha]; exact f.lt
  · intro q hq
    rcases List.mem_append.1 hq with hq | hq
    · exact hs.mats q hq
    · rw [List.mem_singleton] at hq; rw [hq]; exact hm

theorem register_view (h : Heap I X α) (p : PkgObj X) : view (h.register p).1 = (view h).push p.mat p.extra (h.read p.arr) := by
  simp only [view, Heap.register, Store.push, List.map_append, List.map_cons, List.map_nil]
  rfl

theorem view_pkgs_length (h : Heap I X α) : (view h).pkgs.length = h.pkgs.length := by simp [view]

theorem mem_pkgArrays {h : Heap I X α} {i : Nat} {p : PkgObj X} (hp : h.pkgs[i]? = some p) : p.arr ∈ pkgArrays h :=
  List.mem_map_of_mem (List.mem_of_getElem? hp)

theorem lt_of_get {β : Type} {l : List β} {i : Nat} {b : β} (h : l[i]? = some b) : i < l.length := by
  by_contra hh; rw [List.getElem?_eq_none (by omega)] at h; cases h

/-- The heap has changed in the package at position `i` only; this now means `m`, `x`, `l`. -/
structure Upd (h h' : Heap I X α) (i : Nat) (m : Nat) (x : X) (l : List α) : Prop where
  sep : Separate h'
  view : view h' = (view h).update i m x l
  mats : h'.mats = h.mats
  pkg : ∃ a, h'.pkgs[i]? = some ⟨m, x, a⟩
  len : h'.pkgs.length = h.pkgs.length

theorem update_update (s : Store I X α) (i m m' : Nat) (x x' : X) (l l' : List α) : (s.update i m x l).update i m' x' l' = s.update i m' x' l' := by
  simp [Store.update]

theorem Upd.trans {h h' h'' : Heap I X α} {i m m' : Nat} {x x' : X} {l l' : List α} (u : Upd h h' i m x l) (v : Upd h' h'' i m' x' l') : Upd h h'' i m' x' l' :=
  ⟨v.sep, by rw [v.view, u.view, update_update], v.mats.trans u.mats, v.pkg, v.len.trans u.len⟩

theorem Upd.same {h h' h'' : Heap I X α} {i m : Nat} {x : X} {l : List α} (u : Upd h h' i m x l) (s : Same h' h'') : Upd h h'' i m x l :=
  ⟨s.sep u.sep, by rw [s.view, u.view], s.mats.trans u.mats, by rw [s.pkgs]; exact u.pkg, by rw [s.pkgs, u.len]⟩

theorem Same.upd {h h' h'' : Heap I X α} {i m : Nat} {x : X} {l : List α} (s : Same h h') (u : Upd h' h'' i m x l) : Upd h h'' i m x l :=
  ⟨u.sep, by rw [u.view, s.view], u.mats.trans s.mats, u.pkg, by rw [u.len, s.pkgs]⟩

theorem write_pkg {h : Heap I X α} (hs : Separate h) {i : Nat} {p : PkgObj X} (hp : h.pkgs[i]? = some p) (l : List α) :
    Upd h (h.write p.arr l) i p.mat p.extra l := by
  have hi := lt_of_get hp
  have hpi : h.pkgs[i] = p := by rw [List.getElem?_eq_getElem hi] at hp; exact Option.some.inj hp
  refine ⟨?_, ?_, rfl, ⟨p.arr, hp⟩, rfl⟩
  · have hl : (h.write p.arr l).arrays.length = h.arrays.length := by simp [Heap.write]
    exact ⟨hs.own, hs.apart, fun a ha => hl ▸ hs.arrays a ha, fun a ha => hl ▸ hs.assays a ha, hs.mats⟩
  · have h1 := view_eq (h := h) (h' := h.write p.arr l) rfl fun a ha => read_write_ne (by
      rintro rfl; exact hs.apart _ (mem_pkgArrays hp) ha)
    have h2 : (Spec.view (h.write p.arr l)).pkgs = (Spec.view h).pkgs.set i (p.mat, p.extra, l) := by
      apply List.ext_getElem (by simp [Spec.view, Heap.write])
      intro j k1 k2
      have hj : j < h.pkgs.length := by simpa [Spec.view, Heap.write] using k1
      rw [List.getElem_set]
      by_cases e : i = j
      · subst e
        rw [if_pos rfl]
        simp only [Spec.view, List.getElem_map, Heap.write]
        have : (h.write p.arr l).read p.arr = l := read_write_same (hs.arrays _ (mem_pkgArrays hp))
        rw [hpi]
        exact congrArg (fun z => (p.mat, p.extra, z)) this
      · rw [if_neg e]
        simp only [Spec.view, List.getElem_map]
        have hne : p.arr ≠ (h.pkgs[j]).arr := by
          intro hh
          have := (List.nodup_iff_injective_get.1 hs.own)
          have t := this (a₁ := ⟨i, by simpa [pkgArrays] using hi⟩) (a₂ := ⟨j, by simpa [pkgArrays] using hj⟩) (by
            simp [pkgArrays, hpi, hh])
          exact e (by simpa using congrArg Fin.val t)
        exact congrArg (fun z => (_, _, z)) (read_write_ne hne)
    show Spec.view (h.write p.arr l) = Store.mk (Spec.view h).mats ((Spec.view h).pkgs.set i (p.mat, p.extra, l))
    rw [← h2, ← h1]

theorem rebind_pkg {h : Heap I X α} (hs : Separate h) {i : Nat} {p : PkgObj X} (hp : h.pkgs[i]? = some p) {a : Nat} (f : Fresh h a) (x : X) :
    Upd h (h.rebind i ⟨p.mat, x, a⟩) i p.mat x (h.read a) := by
  have hi := lt_of_get hp
  have e : pkgArrays (h.rebind i ⟨p.mat, x, a⟩) = (pkgArrays h).set i a := by simp [pkgArrays, Heap.rebind, List.map_set]
  have mem : ∀ b ∈ (pkgArrays h).set i a, b ∈ pkgArrays h ∨ b = a := fun b hb => List.mem_or_eq_of_mem_set hb
  refine ⟨?_, ?_, rfl, ⟨a, ?_⟩, by simp [Heap.rebind]⟩
  · refine ⟨?_, ?_, ?_, hs.assays, ?_⟩
    · rw [e]; exact hs.own.set f.pkg
    · rw [e]; intro b hb
      rcases mem b hb with hb | rfl
      exacts [hs.apart b hb, f.assay]
    · rw [e]; intro b hb
      rcases mem b hb with hb | rfl
      exacts [hs.arrays b hb, f.lt]
    · intro q hq
      rcases List.mem_or_eq_of_mem_set hq with hq | rfl
      · exact hs.mats q hq
      · exact hs.mats p (List.mem_of_getElem? hp)
  · simp only [Spec.view, Heap.rebind, Store.update, List.map_set]; rfl
  · simp [Heap.rebind, hi]

theorem retag_pkg {h : Heap I X α} (hs : Separate h) {i : Nat} {p : PkgObj X} (hp : h.pkgs[i]? = some p) (x : X) :
    Upd h (h.rebind i ⟨p.mat, x, p.arr⟩) i p.mat x (h.read p.arr) := by
  have hi := lt_of_get hp
  have hpi : h.pkgs[i] = p := by rw [List.getElem?_eq_getElem hi] at hp; exact Option.some.inj hp
  have e : pkgArrays (h.rebind i ⟨p.mat, x, p.arr⟩) = pkgArrays h := by
    simp only [pkgArrays, Heap.rebind, List.map_set]
    apply List.ext_getElem (by simp)
    intro j k1 k2
    rw [List.getElem_set]
    split
    · rename_i ej; subst ej; simp [hpi]
    · rfl
  refine ⟨⟨by rw [e]; exact hs.own, by rw [e]; exact hs.apart, by rw [e]; exact hs.arrays, hs.assays, ?_⟩, ?_, rfl, ⟨p.arr, ?_⟩, by simp [Heap.rebind]⟩
  · intro q hq
    rcases List.mem_or_eq_of_mem_set hq with hq | rfl
    · exact hs.mats q hq
    · exact hs.mats p (List.mem_of_getElem? hp)
  · simp only [Spec.view, Heap.rebind, Store.update, List.map_set]; rfl
  · simp [Heap.rebind, hi]

theorem fresh_write {h : Heap I X α} {a b : Nat} (f : Fresh h a) (l : List α) : Fresh (h.write b l) a := ⟨by simpa [Heap.write] using f.lt, f.pkg, f.assay⟩

theorem fresh_ne {h : Heap I X α} {i : Nat} {p : PkgObj X} (hp : h.pkgs[i]? = some p) {a : Nat} (f : Fresh h a) : p.arr ≠ a := by
  rintro rfl; exact f.pkg (mem_pkgArrays hp)

theorem fresh_rebind {h : Heap I X α} {i : Nat} {p : PkgObj X} {a : Nat} (f : Fresh h a) (hne : p.arr ≠ a) : Fresh (h.rebind i p) a := by
  refine ⟨f.lt, fun hh => ?_, f.assay⟩
  simp only [pkgArrays, Heap.rebind, List.map_set] at hh
  rcases List.mem_or_eq_of_mem_set hh with hh | hh
  exacts [f.pkg hh, hne hh.symm]

theorem update_same {h : Heap I X α} {i : Nat} {p : PkgObj X} (hp : h.pkgs[i]? = some p) : (view h).update i p.mat p.extra (h.read p.arr) = view h := by
  have : (view h).pkgs.set i (p.mat, p.extra, h.read p.arr) = (view h).pkgs := by
    have hi := lt_of_get hp
    have hpi : h.pkgs[i] = p := by rw [List.getElem?_eq_getElem hi] at hp; exact Option.some.inj hp
    apply List.ext_getElem (by simp)
    intro j k1 k2
    rw [List.getElem_set]
    split
    · rename_i e; subst e; simp [view, hpi]
    · rfl
  show Store.mk _ _ = _
  rw [this]

theorem Upd.refl {h : Heap I X α} (hs : Separate h) {i : Nat} {p : PkgObj X} (hp : h.pkgs[i]? = some p) : Upd h h i p.mat p.extra (h.read p.arr) :=
  ⟨hs, (update_same hp).symm, rfl, ⟨p.arr, hp⟩, rfl⟩

/-! ## Values -/

theorem view_mat {h : Heap I X α} {m : Nat} (hm : m < h.mats.length) :
    (view h).mats[m]? = some (h.mats[m].info, h.mats[m].assays.map fun e => (e.1, h.read e.2)) := by simp [view, hm]

theorem view_pkg {h : Heap I X α} {i : Nat} {p : PkgObj X} (hp : h.pkgs[i]? = some p) : (view h).pkgs[i]? = some (p.mat, p.extra, h.read p.arr) := by simp [view, hp]

theorem view_pkg_none {h : Heap I X α} {i : Nat} (hp : h.pkgs[i]? = none) : (view h).pkgs[i]? = none := by simp [view, hp]

theorem cloned_eq (h : Heap I X α) (p : PkgObj X) : h.cloned p = ((h.alloc (h.read p.arr)).1, ⟨p.mat, p.extra, h.arrays.length⟩) := rfl

theorem lookup_map {β γ : Type} (f : β → γ) (l : List (Str × β)) (k : Str) : (l.map fun e => (e.1, f e.2)).lookup k = (l.lookup k).map f := by
  induction l with
  | nil => rfl
  | cons e l ih =>
    obtain ⟨k', v⟩ := e
    simp only [List.map_cons, List.lookup_cons]
    cases k == k' <;> simp [ih]

/-! ## Outcomes -/

/-- What is proved of each operation: the caller sees what the specification says, and packages still share nothing. -/
def Good (r : Out × Heap I X α) (s : Out × Store I X α) : Prop := r.1 = s.1 ∧ view r.2 = s.2 ∧ Separate r.2

theorem good_err {h h' : Heap I X α} (hs : Separate h) (hh : Same h h') (e : PyErr) : Good (.error e, h') (.error e, view h) := ⟨rfl, hh.view, hh.sep hs⟩

theorem good_new {h h' : Heap I X α} (hs : Separate h) (hh : Same h h') {m : Nat} (hm : m < h.mats.length) (x : X) {a : Nat} (f : Fresh h' a) :
    Good (finish (.ok ⟨m, x, a⟩, h')) (.ok (some h.pkgs.length), (view h).push m x (h'.read a)) := by
  refine ⟨?_, ?_, register_sep (hh.sep hs) f (by rw [hh.mats]; exact hm)⟩
  · simp only [finish, Heap.register, hh.pkgs]
  · simp only [finish]
    rw [← hh.view]
    exact register_view h' ⟨m, x, a⟩

theorem good_upd {h h' : Heap I X α} {i m : Nat} {x : X} {l : List α} (u : Upd h h' i m x l) (o : Out) : Good (o, h') (o, (view h).update i m x l) := ⟨rfl, u.view, u.sep⟩

theorem good_upd_new {h h' : Heap I X α} {i m : Nat} {x : X} {l : List α} (u : Upd h h' i m x l) {n : Nat} (hn : n < h.mats.length) (y : X) {a : Nat} (f : Fresh h' a) :
    Good (finish (.ok ⟨n, y, a⟩, h')) (.ok (some h.pkgs.length), ((view h).update i m x l).push n y (h'.read a)) := by
  have := good_new u.sep (Same.refl h') (by rw [u.mats]; exact hn) y f
  rw [u.view, u.len] at this
  exact this

theorem contents_view (h : Heap I X α) (j : Nat) : contents h j = (view h).pkgs[j]? := by
  simp only [contents, view, List.getElem?_map]
  cases h.pkgs[j]? <;> rfl

theorem assay_view (h : Heap I X α) (m : Nat) (name : Str) : assayOf h m name = (match (view h).mats[m]? with
    | none => none
    | some e => e.2.lookup name) := by
  simp only [assayOf, view, List.getElem?_map]
  cases h.mats[m]? with
  | none => rfl
  | some o =>
    simp only [Option.map_some, lookup_map]
    cases o.assays.lookup name <;> rfl

/-! ## The caller's arrays -/

theorem start_sep (mats : List (MatObj I)) (arrays : List (List α)) (ha : ∀ o ∈ mats, ∀ e ∈ o.assays, e.2 < arrays.length) : Separate (⟨mats, [], arrays⟩ : Heap I X α) := by
  refine ⟨List.nodup_nil, fun a h => (nomatch h), fun a h => (nomatch h), ?_, fun a h => (nomatch h)⟩
  intro a h
  simp only [assayArrays, List.mem_flatMap, List.mem_map] at h
  obtain ⟨o, ho, e, he, rfl⟩ := h
  exact ha o ho e he

theorem construct_own {h : Heap I X α} (hs : Separate h) {a : Nat} (f : Fresh h a) {m : Nat} (hm : m < h.mats.length) (x : X) :
    Separate (h.construct m x a).2 ∧ contents (h.construct m x a).2 h.pkgs.length = some (m, x, h.read a) ∧
      ∀ j < h.pkgs.length, contents (h.construct m x a).2 j = contents h j := by
  simp only [Heap.construct, if_pos hm, finish]
  refine ⟨register_sep hs f hm, ?_, fun j hj => ?_⟩
  · simp [contents, Heap.register, Heap.read]
  · simp only [contents, Heap.register, List.getElem?_append_left hj]; rfl

theorem setMat_own {h : Heap I X α} (hs : Separate h) {m : Nat} {o o' : MatObj I} (hm : h.mats[m]? = some o)
    (ho : ∀ e ∈ o'.assays, e ∈ o.assays ∨ (e.2 < h.arrays.length ∧ e.2 ∉ pkgArrays h)) :
    Separate { h with mats := h.mats.set m o' } := by
  have mem : ∀ b, b ∈ assayArrays { h with mats := h.mats.set m o' } → b ∈ assayArrays h ∨ (b < h.arrays.length ∧ b ∉ pkgArrays h) := by
    intro b hb
    simp only [assayArrays, List.mem_flatMap, List.mem_map] at hb ⊢
    obtain ⟨o1, ho1, e, he, rfl⟩ := hb
    rcases List.mem_or_eq_of_mem_set ho1 with ho1 | rfl
    · exact Or.inl ⟨o1, ho1, e, he, rfl⟩
    · rcases ho e he with he | he
      · exact Or.inl ⟨o, List.mem_of_getElem? hm, e, he, rfl⟩
      · exact Or.inr he
  refine ⟨hs.own, fun b hb hb' => ?_, hs.arrays, fun b hb => ?_, fun p hp => ?_⟩
  · rcases mem b hb' with hb' | hb'
    exacts [hs.apart b hb hb', hb'.2 hb]
  · rcases mem b hb with hb | hb
    exacts [hs.assays b hb, hb.1]
  · simpa using hs.mats p hp

theorem addAssay_own {size : I → Nat} {h : Heap I X α} (hs : Separate h) {a : Nat} (ha : a < h.arrays.length) (h1 : a ∉ pkgArrays h) (m : Nat) (name : Str) :
    Separate (h.addAssay size m name a).2 ∧ ∀ j, contents (h.addAssay size m name a).2 j = contents h j := by
  simp only [Heap.addAssay]
  cases hm : h.mats[m]? with
  | none => exact ⟨hs, fun j => rfl⟩
  | some o =>
    dsimp only
    split
    · exact ⟨hs, fun j => rfl⟩
    · split
      · exact ⟨hs, fun j => rfl⟩
      · refine ⟨setMat_own hs hm fun e he => ?_, fun j => rfl⟩
        rcases List.mem_append.1 he with he | he
        · exact Or.inl he
        · rw [List.mem_singleton] at he; rw [he]; exact Or.inr ⟨ha, h1⟩

theorem setItem_own {h : Heap I X α} (hs : Separate h) {a : Nat} (f : Fresh h a) (i : Nat) (x : α) :
    Separate (h.setItem a i x).2 ∧ (∀ j, contents (h.setItem a i x).2 j = contents h j) ∧ ∀ m name, assayOf (h.setItem a i x).2 m name = assayOf h m name := by
  simp only [Heap.setItem]
  split
  · have s := same_write_fresh f ((h.read a).set i x)
    refine ⟨s.sep hs, fun j => ?_, fun m name => ?_⟩
    · rw [contents_view, contents_view, s.view]
    · rw [assay_view, assay_view, s.view]
  · exact ⟨hs, fun _ => rfl, fun _ _ => rfl⟩

/-- The store has kept its materials and all packages but the one at a position. -/
structure Keeps (s s' : Store I X α) (i : Option Nat) : Prop where
  mats : s'.mats = s.mats
  len : s.pkgs.length ≤ s'.pkgs.length
  pkgs : ∀ j < s.pkgs.length, i ≠ some j → s'.pkgs[j]? = s.pkgs[j]?

theorem keeps_refl (s : Store I X α) (i : Option Nat) : Keeps s s i := ⟨rfl, le_refl _, fun _ _ _ => rfl⟩

theorem keeps_push (s : Store I X α) (i : Option Nat) (m : Nat) (x : X) (l : List α) : Keeps s (s.push m x l) i :=
  ⟨rfl, by simp [Store.push], fun _ hj _ => List.getElem?_append_left hj⟩

theorem keeps_update (s : Store I X α) (i m : Nat) (x : X) (l : List α) : Keeps s (s.update i m x l) (some i) :=
  ⟨rfl, by simp [Store.update], fun _ _ hr => List.getElem?_set_ne (by rintro rfl; exact hr rfl)⟩

theorem Keeps.trans {s s' s'' : Store I X α} {i : Option Nat} (h : Keeps s s' i) (k : Keeps s' s'' i) : Keeps s s'' i :=
  ⟨k.mats.trans h.mats, le_trans h.len k.len, fun j hj hr => by rw [k.pkgs j (lt_of_lt_of_le hj h.len) hr, h.pkgs j hj hr]⟩

end Auxi.ArrHeap.Proofs
