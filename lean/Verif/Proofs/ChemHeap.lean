import Verif.Spec.ChemHeap
import Mathlib.Data.List.Basic
import Mathlib.Data.List.Nodup
import Mathlib.Tactic.Basic

/-! # Proofs for C115 -/
namespace Auxi.ChemHeap.Proofs
open Auxi Auxi.Chem Auxi.ChemHeap Auxi.ChemHeap.Spec

/-! ## Heap operations -/

theorem read_alloc_old {h : Heap} {l : List Num} {a : Nat} (ha : a < h.lists.length) : (h.alloc l).1.read a = h.read a := by
  simp only [Heap.read, Heap.alloc]; rw [List.getElem?_append_left ha]

theorem read_alloc_new (h : Heap) (l : List Num) : (h.alloc l).1.read h.lists.length = l := by
  simp [Heap.read, Heap.alloc]

theorem read_write_same {h : Heap} {l : List Num} {a : Nat} (ha : a < h.lists.length) : (h.write a l).read a = l := by
  simp [Heap.read, Heap.write, ha]

theorem read_write_ne {h : Heap} {l : List Num} {a b : Nat} (hab : a ≠ b) : (h.write a l).read b = h.read b := by
  simp only [Heap.read, Heap.write]; rw [List.getElem?_set_ne hab]

theorem write_read (h : Heap) (a : Nat) : h.write a (h.read a) = h := by
  obtain ⟨m, p, l⟩ := h
  simp only [Heap.write, Heap.read]
  congr 1
  by_cases ha : a < l.length
  · rw [List.getElem?_eq_getElem ha]; simp
  · rw [List.set_eq_of_length_le (by omega)]

theorem write_write (h : Heap) (a : Nat) (l k : List Num) : (h.write a l).write a k = h.write a k := by
  simp [Heap.write]

/-- Lists that no package and no assay holds. -/
structure Fresh (h : Heap) (a : Nat) : Prop where
  lt : a < h.lists.length
  pkg : a ∉ pkgLists h
  assay : a ∉ assayLists h

/-- The second heap has the same objects with the same contents, and at least the lists of the first. -/
structure Same (h h' : Heap) : Prop where
  mats : h'.mats = h.mats
  pkgs : h'.pkgs = h.pkgs
  len : h.lists.length ≤ h'.lists.length
  read : ∀ a, a ∈ pkgLists h ∨ a ∈ assayLists h → h'.read a = h.read a

theorem Same.refl (h : Heap) : Same h h := ⟨rfl, rfl, le_refl _, fun _ _ => rfl⟩

theorem Same.lists {h h' : Heap} (s : Same h h') : pkgLists h' = pkgLists h ∧ assayLists h' = assayLists h := by
  constructor
  · unfold pkgLists; rw [s.pkgs]
  · unfold assayLists; rw [s.mats]

theorem Same.trans {h h' h'' : Heap} (s : Same h h') (t : Same h' h'') : Same h h'' := by
  refine ⟨t.mats.trans s.mats, t.pkgs.trans s.pkgs, le_trans s.len t.len, fun a ha => ?_⟩
  rw [t.read a (by rw [s.lists.1, s.lists.2]; exact ha), s.read a ha]

theorem view_eq {h h' : Heap} (hm : h'.mats = h.mats) (hr : ∀ a ∈ assayLists h, h'.read a = h.read a) : (view h').mats = (view h).mats := by
  simp only [view, hm]
  apply List.ext_getElem (by simp)
  intro i h1 h2
  simp only [List.getElem_mapIdx]
  congr 1
  apply List.map_congr_left
  intro e he
  rw [hr]
  simp only [assayLists, List.mem_flatMap, List.mem_map]
  exact ⟨_, List.getElem_mem _, e, he, rfl⟩

theorem Same.view {h h' : Heap} (s : Same h h') : Spec.view h' = Spec.view h := by
  have h1 := view_eq s.mats fun a ha => s.read a (Or.inr ha)
  have h2 : (Spec.view h').pkgs = (Spec.view h).pkgs := by
    simp only [Spec.view, s.pkgs]
    apply List.map_congr_left
    intro p hp
    rw [s.read _ (Or.inl (List.mem_map_of_mem hp))]
  cases hv : Spec.view h'; cases hw : Spec.view h
  rw [hv, hw] at h1 h2
  simp only at h1 h2
  rw [h1, h2]

theorem Same.sep {h h' : Heap} (s : Same h h') (hs : Separate h) : Separate h' := by
  obtain ⟨e1, e2⟩ := s.lists
  refine ⟨by rw [e1]; exact hs.own, by rw [e1, e2]; exact hs.apart, ?_, ?_, by rw [s.pkgs, s.mats]; exact hs.mats⟩
  · rw [e1]; exact fun a ha => lt_of_lt_of_le (hs.lists a ha) s.len
  · rw [e2]; exact fun a ha => lt_of_lt_of_le (hs.assays a ha) s.len

theorem Same.fresh {h h' : Heap} (s : Same h h') {a : Nat} (f : Fresh h a) : Fresh h' a := by
  obtain ⟨e1, e2⟩ := s.lists
  exact ⟨lt_of_lt_of_le f.lt s.len, by rw [e1]; exact f.pkg, by rw [e2]; exact f.assay⟩

theorem same_alloc {h : Heap} (hs : Separate h) (l : List Num) : Same h (h.alloc l).1 := by
  refine ⟨rfl, rfl, by simp [Heap.alloc], fun a ha => read_alloc_old ?_⟩
  rcases ha with ha | ha
  exacts [hs.lists a ha, hs.assays a ha]

theorem fresh_alloc {h : Heap} (hs : Separate h) (l : List Num) : Fresh (h.alloc l).1 h.lists.length := by
  refine ⟨by simp [Heap.alloc], fun hh => ?_, fun hh => ?_⟩
  · exact absurd (hs.lists _ hh) (lt_irrefl _)
  · exact absurd (hs.assays _ hh) (lt_irrefl _)

theorem same_write_fresh {h : Heap} {a : Nat} (f : Fresh h a) (l : List Num) : Same h (h.write a l) := by
  refine ⟨rfl, rfl, by simp [Heap.write], fun b hb => read_write_ne ?_⟩
  rintro rfl
  rcases hb with hb | hb
  exacts [f.pkg hb, f.assay hb]

/-! ## Registering, rebinding, writing -/

theorem register_sep {h : Heap} (hs : Separate h) {p : PkgObj} (f : Fresh h p.masses) (hm : p.mat < h.mats.length) : Separate (h.register p).1 := by
  have e : pkgLists (h.register p).1 = pkgLists h ++ [p.masses] := by simp [pkgLists, Heap.register]
  have e2 : assayLists (h.register p).1 = assayLists h := rfl
  refine ⟨?_, ?_, ?_, hs.assays, ?_⟩
  · rw [e, List.nodup_append]
    refine ⟨hs.own, by simp, ?_⟩
    intro a ha b hb
    rw [List.mem_singleton] at hb
    rintro rfl
    subst hb
    exact f.pkg ha
  · rw [e, e2]
    intro a ha
    rcases List.mem_append.1 ha with ha | ha
    · exact hs.apart a ha
    · rw [List.mem_singleton] at ha; rw [ha]; exact f.assay
  · rw [e]
    intro a ha
    rcases List.mem_append.1 ha with ha | ha
    · exact hs.lists a ha
    · rw [List.mem_singleton] at ha; rw [ha]; exact f.lt
  · intro q hq
    rcases List.mem_append.1 hq with hq | hq
    · exact hs.mats q hq
    · rw [List.mem_singleton] at hq; rw [hq]; exact hm

theorem register_view (h : Heap) (p : PkgObj) : view (h.register p).1 = (view h).push p.mat (h.read p.masses) := by
  simp only [view, Heap.register, Store.push, List.map_append, List.map_cons, List.map_nil]
  rfl

theorem view_pkgs_length (h : Heap) : (view h).pkgs.length = h.pkgs.length := by simp [view]

theorem finish_ok {h : Heap} {p : PkgObj} {M : Material} (hi : M.ident = p.mat) {l : List Num} (hl : h.read p.masses = l) :
    ((finish (.ok p, h)).1, view (finish (.ok p, h)).2) = (view h).result (.ok ⟨M, l⟩) := by
  simp only [finish, Store.result, hi, view_pkgs_length, ← hl]
  rw [← register_view]
  rfl

theorem mem_pkgLists {h : Heap} {i : Nat} {p : PkgObj} (hp : h.pkgs[i]? = some p) : p.masses ∈ pkgLists h :=
  List.mem_map_of_mem (List.mem_of_getElem? hp)

theorem set_map {α β : Type} (f : α → β) (l : List α) (i : Nat) (a : α) : (l.set i a).map f = (l.map f).set i (f a) := by
  rw [List.map_set]

theorem write_pkg {h : Heap} (hs : Separate h) {i : Nat} {p : PkgObj} (hp : h.pkgs[i]? = some p) (l : List Num) :
    Separate (h.write p.masses l) ∧ view (h.write p.masses l) = (view h).update i p.mat l := by
  constructor
  · have hl : (h.write p.masses l).lists.length = h.lists.length := by simp [Heap.write]
    exact ⟨hs.own, hs.apart, fun a ha => hl ▸ hs.lists a ha, fun a ha => hl ▸ hs.assays a ha, hs.mats⟩
  · have h1 := view_eq (h := h) (h' := h.write p.masses l) rfl fun a ha => read_write_ne (by
      rintro rfl; exact hs.apart _ (mem_pkgLists hp) ha)
    have h2 : (view (h.write p.masses l)).pkgs = (view h).pkgs.set i (p.mat, l) := by
      apply List.ext_getElem (by simp [view, Heap.write])
      intro j k1 k2
      have hj : j < h.pkgs.length := by simpa [view, Heap.write] using k1
      have hi : i < h.pkgs.length := by
        by_contra hh; rw [List.getElem?_eq_none (by omega)] at hp; cases hp
      have hpi : h.pkgs[i] = p := by rw [List.getElem?_eq_getElem hi] at hp; exact Option.some.inj hp
      rw [List.getElem_set]
      by_cases e : i = j
      · subst e
        rw [if_pos rfl]
        simp only [view, List.getElem_map, Heap.write]
        have : (h.write p.masses l).read p.masses = l := read_write_same (hs.lists _ (mem_pkgLists hp))
        rw [hpi]
        exact congrArg (Prod.mk p.mat) this
      · rw [if_neg e]
        simp only [view, List.getElem_map]
        have hne : p.masses ≠ (h.pkgs[j]).masses := by
          intro hh
          have := (List.nodup_iff_injective_get.1 hs.own)
          have t := this (a₁ := ⟨i, by simpa [pkgLists] using hi⟩) (a₂ := ⟨j, by simpa [pkgLists] using hj⟩) (by
            simp [pkgLists, hpi, hh])
          exact e (by simpa using congrArg Fin.val t)
        exact congrArg (Prod.mk _) (read_write_ne hne)
    show view (h.write p.masses l) = Store.mk (view h).mats ((view h).pkgs.set i (p.mat, l))
    rw [← h2, ← h1]

theorem rebind_pkg {h : Heap} (hs : Separate h) {i : Nat} {p : PkgObj} (hp : h.pkgs[i]? = some p) {a : Nat} (f : Fresh h a) :
    Separate (h.rebind i ⟨p.mat, a⟩) ∧ view (h.rebind i ⟨p.mat, a⟩) = (view h).update i p.mat (h.read a) := by
  have hi : i < h.pkgs.length := by
    by_contra hh; rw [List.getElem?_eq_none (by omega)] at hp; cases hp
  have e : pkgLists (h.rebind i ⟨p.mat, a⟩) = (pkgLists h).set i a := by simp [pkgLists, Heap.rebind, List.map_set]
  have mem : ∀ b ∈ (pkgLists h).set i a, b ∈ pkgLists h ∨ b = a := fun b hb => List.mem_or_eq_of_mem_set hb
  constructor
  · refine ⟨?_, ?_, ?_, hs.assays, ?_⟩
    · rw [e]; exact hs.own.set f.pkg
    · rw [e]; intro b hb
      rcases mem b hb with hb | rfl
      exacts [hs.apart b hb, f.assay]
    · rw [e]; intro b hb
      rcases mem b hb with hb | rfl
      exacts [hs.lists b hb, f.lt]
    · intro q hq
      rcases List.mem_or_eq_of_mem_set hq with hq | rfl
      · exact hs.mats q hq
      · exact hs.mats p (List.mem_of_getElem? hp)
  · simp only [view, Heap.rebind, Store.update, List.map_set]; rfl

/-! ## Values -/

theorem view_mat {h : Heap} {m : Nat} (hm : m < h.mats.length) : ∃ M, (view h).mats[m]? = some M ∧ M.ident = m ∧ M.compounds = h.compounds m := by
  refine ⟨⟨m, h.mats[m].compounds, h.mats[m].assays.map fun e => (e.1, h.read e.2), h.mats[m].elements⟩, ?_, rfl, ?_⟩
  · simp [view, hm]
  · simp [Heap.compounds, hm]

theorem view_pkg {h : Heap} (hs : Separate h) {i : Nat} {p : PkgObj} (hp : h.pkgs[i]? = some p) :
    ∃ M, (view h).pkg i = some ⟨M, h.read p.masses⟩ ∧ M.ident = p.mat ∧ M.compounds = h.compounds p.mat := by
  obtain ⟨M, h1, h2, h3⟩ := view_mat (hs.mats p (List.mem_of_getElem? hp))
  refine ⟨M, ?_, h2, h3⟩
  have : (view h).pkgs[i]? = some (p.mat, h.read p.masses) := by simp [view, hp]
  simp only [Store.pkg, this, h1]

theorem view_pkg_none {h : Heap} {i : Nat} (hp : h.pkgs[i]? = none) : (view h).pkg i = none := by
  have : (view h).pkgs[i]? = none := by simp [view, hp]
  simp only [Store.pkg, this]

theorem index_eq {h : Heap} {m : Nat} {M : Material} (hM : M.compounds = h.compounds m) (c : Str) : h.index m c = M.index c := by
  simp only [Heap.index, Material.index, hM]; rfl

theorem compoundMass_eq {h : Heap} {q : PkgObj} {M : Material} (hM : M.compounds = h.compounds q.mat) (c : Str) :
    h.compoundMass q c = Package.compoundMass ⟨M, h.read q.masses⟩ c := by
  simp only [Heap.compoundMass, Package.compoundMass, index_eq hM]
  cases M.index c with
  | error e => rfl
  | ok i => cases (h.read q.masses)[i]? <;> rfl

theorem update_same {h : Heap} {i : Nat} {p : PkgObj} (hp : h.pkgs[i]? = some p) : (view h).update i p.mat (h.read p.masses) = view h := by
  have : (view h).pkgs.set i (p.mat, h.read p.masses) = (view h).pkgs := by
    have hi : i < h.pkgs.length := by
      by_contra hh; rw [List.getElem?_eq_none (by omega)] at hp; cases hp
    have hpi : h.pkgs[i] = p := by rw [List.getElem?_eq_getElem hi] at hp; exact Option.some.inj hp
    apply List.ext_getElem (by simp)
    intro j k1 k2
    rw [List.getElem_set]
    split
    · rename_i e; subst e; simp [view, hpi]
    · rfl
  show Store.mk _ _ = _
  rw [this]

/-! ## `add_to` -/

theorem addTuple_eq {h : Heap} {p : PkgObj} {M : Material} (hM : M.compounds = h.compounds p.mat) (c : Str) (x : Num) :
    h.addTuple p c x = (match Package.addTuple ⟨M, h.read p.masses⟩ c x with
      | .error e => (.error e, h)
      | .ok P => (.ok (), h.write p.masses P.masses)) := by
  simp only [Heap.addTuple, Package.addTuple, index_eq hM]
  split
  · cases hi : M.index c with
    | error e => rfl
    | ok i =>
      dsimp only
      cases hy : (h.read p.masses)[i]? <;> rfl
  · rfl

theorem addTuple_mat {P P' : Package} {c : Str} {x : Num} (h : P.addTuple c x = .ok P') : P'.mat = P.mat := by
  unfold Package.addTuple at h
  split at h
  · split at h
    · cases h
    · split at h
      · cases h
      · cases h; rfl
  · cases h

theorem addLoop_mat (Q : Package) (cs : List Str) : ∀ P : Package, (Package.addLoop Q cs P).2.mat = P.mat := by
  induction cs with
  | nil => intro P; rfl
  | cons c cs ih =>
    intro P
    unfold Package.addLoop
    split
    · rfl
    · split
      · rfl
      · split
        · rfl
        · rename_i P' hP
          rw [ih P', addTuple_mat hP]

theorem addToLoop_eq {p q : PkgObj} (hpq : p.masses ≠ q.masses) (cs : List Str) : ∀ (h : Heap) {M N : Material}, p.masses < h.lists.length → M.compounds = h.compounds p.mat →
    N.compounds = h.compounds q.mat → addToLoop p q cs h = ((Package.addLoop ⟨N, h.read q.masses⟩ cs ⟨M, h.read p.masses⟩).1,
      h.write p.masses (Package.addLoop ⟨N, h.read q.masses⟩ cs ⟨M, h.read p.masses⟩).2.masses) := by
  induction cs with
  | nil => intro h M N _ _ _; simp only [addToLoop, Package.addLoop]; rw [write_read]
  | cons c cs ih =>
    intro h M N hl hM hN
    simp only [addToLoop, Package.addLoop]
    rw [hM]
    split
    · dsimp only; rw [write_read]
    · rw [compoundMass_eq hN]
      cases hx : Package.compoundMass ⟨N, h.read q.masses⟩ c with
      | error e => dsimp only; rw [write_read]
      | ok x =>
        dsimp only
        rw [addTuple_eq hM]
        cases ha : Package.addTuple ⟨M, h.read p.masses⟩ c x with
        | error e => dsimp only; rw [write_read]
        | ok P =>
          dsimp only
          have hP := addTuple_mat ha
          obtain ⟨Pm, Pl⟩ := P
          dsimp only at hP
          subst hP
          have hw : (h.write p.masses Pl).read p.masses = Pl := read_write_same hl
          have hq : (h.write p.masses Pl).read q.masses = h.read q.masses := read_write_ne hpq
          rw [ih (h.write p.masses Pl) (by simpa [Heap.write] using hl) hM hN, hw, hq, write_write]

/-! ## `+` -/

theorem cloned_eq (h : Heap) (p : PkgObj) : h.cloned p = ((h.alloc (h.read p.masses)).1, ⟨p.mat, h.lists.length⟩) := rfl

theorem plusTuple_spec {h : Heap} (hs : Separate h) {r : PkgObj} {M : Material} (hM : M.compounds = h.compounds r.mat) (c : Str) (x : Num) :
    Same h (h.plusTuple r c x).2 ∧ (match Package.addTuple ⟨M, h.read r.masses⟩ c x with
      | .error e => (h.plusTuple r c x).1 = .error e
      | .ok P => ∃ r', (h.plusTuple r c x).1 = .ok r' ∧ r'.mat = r.mat ∧ Fresh (h.plusTuple r c x).2 r'.masses ∧ (h.plusTuple r c x).2.read r'.masses = P.masses) := by
  unfold Heap.plusTuple Package.addTuple
  rw [index_eq hM]
  split
  · cases hi : M.index c with
    | error e => exact ⟨Same.refl h, rfl⟩
    | ok i =>
      dsimp only [cloned_eq]
      rw [read_alloc_new]
      cases hy : (h.read r.masses)[i]? with
      | none => exact ⟨same_alloc hs _, rfl⟩
      | some y =>
        dsimp only
        have f := fresh_alloc hs (h.read r.masses)
        refine ⟨(same_alloc hs _).trans (same_write_fresh f _), ⟨r.mat, h.lists.length⟩, rfl, rfl, (same_write_fresh f _).fresh f, ?_⟩
        exact read_write_same f.lt
  · exact ⟨Same.refl h, rfl⟩

theorem plusLoop_spec {p q : PkgObj} (cs : List Str) : ∀ (h : Heap) (r : PkgObj) {M N : Material}, Separate h → r.mat = p.mat → Fresh h r.masses → q.masses ∈ pkgLists h →
    M.compounds = h.compounds p.mat → N.compounds = h.compounds q.mat →
    Same h (plusLoop p q cs r h).2 ∧ (match Package.addLoop ⟨N, h.read q.masses⟩ cs ⟨M, h.read r.masses⟩ with
      | (.error e, _) => (plusLoop p q cs r h).1 = .error e
      | (.ok _, P) => ∃ r', (plusLoop p q cs r h).1 = .ok r' ∧ r'.mat = p.mat ∧ Fresh (plusLoop p q cs r h).2 r'.masses ∧ (plusLoop p q cs r h).2.read r'.masses = P.masses) := by
  induction cs with
  | nil => intro h r M N hs hm f _ _ _; exact ⟨Same.refl h, r, rfl, hm, f, rfl⟩
  | cons c cs ih =>
    intro h r M N hs hm f hq hM hN
    simp only [plusLoop, Package.addLoop]
    rw [hM]
    split
    · exact ⟨Same.refl h, rfl⟩
    · rw [compoundMass_eq hN]
      cases hx : Package.compoundMass ⟨N, h.read q.masses⟩ c with
      | error e => exact ⟨Same.refl h, rfl⟩
      | ok x =>
        dsimp only
        obtain ⟨s, k⟩ := plusTuple_spec hs (hM.trans (by rw [hm])) c x
        cases ha : Package.addTuple ⟨M, h.read r.masses⟩ c x with
        | error e =>
          rw [ha] at k
          generalize h.plusTuple r c x = w at s k ⊢
          obtain ⟨w1, w2⟩ := w
          dsimp only at s k
          subst k
          exact ⟨s, rfl⟩
        | ok P =>
          rw [ha] at k
          generalize h.plusTuple r c x = w at s k ⊢
          obtain ⟨w1, w2⟩ := w
          dsimp only at s k
          obtain ⟨r', k1, k2, k3, k4⟩ := k
          subst k1
          dsimp only
          have hP := addTuple_mat ha
          obtain ⟨Pm, Pl⟩ := P
          dsimp only at hP k4
          subst hP
          have hc : ∀ m, w2.compounds m = h.compounds m := fun m => by simp only [Heap.compounds, s.mats]
          have := ih w2 r' (M := Pm) (N := N) (s.sep hs) (k2.trans hm) k3 (by rw [s.lists.1]; exact hq) (by rw [hc]; exact hM) (by rw [hc]; exact hN)
          rw [k4, s.read _ (Or.inl hq)] at this
          exact ⟨s.trans this.1, this.2⟩

end Auxi.ChemHeap.Proofs
