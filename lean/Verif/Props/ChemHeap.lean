import Verif.Proofs.ChemHeap

/-! # C115: packages do not share their contents -/
namespace Auxi.ChemHeap.Props
open Auxi Auxi.Chem Auxi.ChemHeap Auxi.ChemHeap.Spec Auxi.ChemHeap.Proofs

/-- Is the statement an operation on packages (not on the caller's own lists)? -/
def IsOp : Cmd → Prop
  | .list _ | .setItem _ _ _ | .construct _ _ | .addAssay _ _ _ => False
  | _ => True

theorem finish_err {e : PyErr} {h : Heap} : finish (.error e, h) = (.error e, h) := rfl

theorem arg_pkg {h : Heap} (hs : Separate h) {q : Nat} {Q : PkgObj} (hq : h.pkgs[q]? = some Q) :
    ∃ N, (view h).arg (.pkg q) = some (.pkg ⟨N, h.read Q.masses⟩) ∧ N.ident = Q.mat ∧ N.compounds = h.compounds Q.mat := by
  obtain ⟨N, h1, h2, h3⟩ := view_pkg hs hq
  exact ⟨N, by simp [Store.arg, h1], h2, h3⟩

theorem lookup_map {α β : Type} (f : α → β) (l : List (Str × α)) (k : Str) : (l.map fun e => (e.1, f e.2)).lookup k = (l.lookup k).map f := by
  induction l with
  | nil => rfl
  | cons e l ih =>
    obtain ⟨k', v⟩ := e
    simp only [List.map_cons, List.lookup_cons]
    cases k == k' <;> simp [ih]

/-- What is proved of each operation: the caller sees what the specification says, and packages still share nothing. -/
def Good (r : Out × Heap) (s : Out × Store) : Prop := r.1 = s.1 ∧ view r.2 = s.2 ∧ Separate r.2

theorem good_err {h h' : Heap} (hs : Separate h) (hh : Same h h') (e : PyErr) : Good (.error e, h') (.error e, view h) := ⟨rfl, hh.view, hh.sep hs⟩

theorem good_new {h h' : Heap} {p : PkgObj} (hs : Separate h) (hh : Same h h') (f : Fresh h' p.masses) (hm : p.mat < h.mats.length) {M : Material} (hi : M.ident = p.mat)
    {l : List Num} (hl : h'.read p.masses = l) : Good (finish (.ok p, h')) ((view h).result (.ok ⟨M, l⟩)) := by
  have := finish_ok hi hl
  rw [hh.view] at this
  exact ⟨congrArg Prod.fst this, congrArg Prod.snd this, register_sep (hh.sep hs) f (by rw [hh.mats]; exact hm)⟩

theorem good_create {h : Heap} (hs : Separate h) (m : Nat) (a : Option Str) (mass : Num) (n : Bool) :
    Good (h.createPackage m a mass n) (match (view h).mats[m]? with
      | none => (.error .nameError, view h)
      | some M => (view h).result (M.createPackage a mass n)) := by
  unfold Heap.createPackage
  cases hm : h.mats[m]? with
  | none =>
    have : (view h).mats[m]? = none := by simp [view, hm]
    rw [this]; exact good_err hs (Same.refl h) _
  | some o =>
    have hlt : m < h.mats.length := by
      by_contra hh; rw [List.getElem?_eq_none (by omega)] at hm; cases hm
    have e : (view h).mats[m]? = some ⟨m, o.compounds, o.assays.map fun e => (e.1, h.read e.2), o.elements⟩ := by simp [view, hm]
    rw [e]
    dsimp only
    cases a with
    | none => exact good_new (p := ⟨m, h.lists.length⟩) hs (same_alloc hs _) (fresh_alloc hs _) hlt rfl (read_alloc_new h _)
    | some name =>
      simp only [Material.createPackage, Material.assayTotal, Material.assay, lookup_map]
      cases ha : o.assays.lookup name with
      | none => cases n <;> exact good_err hs (Same.refl h) _
      | some a =>
        simp only [Option.map_some]
        have key : ∀ t : Num, Good (match mapRes (fun x => (mass.mul x).div t) (h.read a) with
          | .error e => (.error e, h)
          | .ok ms => match h.alloc ms with
            | (h, b) => finish (.ok ⟨m, b⟩, h)) ((view h).result (match mapRes (fun x => (mass.mul x).div t) (h.read a) with
              | .error e => .error e
              | .ok ms => .ok ⟨⟨m, o.compounds, o.assays.map fun e => (e.1, h.read e.2), o.elements⟩, ms⟩)) := by
          intro t
          cases mapRes (fun x => (mass.mul x).div t) (h.read a) with
          | error e => exact good_err hs (Same.refl h) _
          | ok ms => exact good_new (p := ⟨m, h.lists.length⟩) hs (same_alloc hs _) (fresh_alloc hs _) hlt rfl (read_alloc_new h _)
        cases n
        · exact key (fl 1)
        · exact key (pySum (h.read a))

theorem good_plus {h : Heap} (hs : Separate h) {i : Nat} {p : PkgObj} (hp : h.pkgs[i]? = some p) (a : HArg) :
    Good (h.plus p a) (match (view h).pkg i, (view h).arg a with
      | some P, some A => (view h).result (P.add A)
      | _, _ => (.error .nameError, view h)) := by
  obtain ⟨M, e1, e2, e3⟩ := view_pkg hs hp
  have hlt := hs.mats p (List.mem_of_getElem? hp)
  rw [e1]
  cases a with
  | pkg q =>
    simp only [Heap.plus]
    cases hq : h.pkgs[q]? with
    | none => simp only [Store.arg, view_pkg_none hq]; exact good_err hs (Same.refl h) _
    | some Q =>
      obtain ⟨N, f1, f2, f3⟩ := arg_pkg hs hq
      rw [f1]
      simp only [Package.add, e2, f2]
      by_cases hpq : p.mat = Q.mat
      · rw [if_pos hpq, if_pos hpq]
        exact good_new (p := ⟨p.mat, h.lists.length⟩) hs (same_alloc hs _) (fresh_alloc hs _) hlt e2 (read_alloc_new h _)
      · rw [if_neg hpq, if_neg hpq]
        simp only [cloned_eq]
        have sa := same_alloc hs (h.read p.masses)
        have hc : ∀ m, (h.alloc (h.read p.masses)).1.compounds m = h.compounds m := fun m => rfl
        have := plusLoop_spec (p := p) (q := Q) (h.compounds Q.mat) (h.alloc (h.read p.masses)).1 ⟨p.mat, h.lists.length⟩ (M := M) (N := N) (sa.sep hs) rfl
          (fresh_alloc hs _) (mem_pkgLists hq) e3 f3
        rw [read_alloc_new, sa.read _ (Or.inl (mem_pkgLists hq))] at this
        rw [hc, f3]
        obtain ⟨s, k⟩ := this
        generalize plusLoop p Q (h.compounds Q.mat) ⟨p.mat, h.lists.length⟩ (h.alloc (h.read p.masses)).1 = w at s k ⊢
        obtain ⟨w1, w2⟩ := w
        have hm := addLoop_mat ⟨N, h.read Q.masses⟩ (h.compounds Q.mat) ⟨M, h.read p.masses⟩
        generalize Package.addLoop ⟨N, h.read Q.masses⟩ (h.compounds Q.mat) ⟨M, h.read p.masses⟩ = v at k hm ⊢
        obtain ⟨v1, v2⟩ := v
        cases v1 with
        | error e => dsimp only at k; subst k; exact good_err hs (sa.trans s) _
        | ok u =>
          obtain ⟨r', k1, k2, k3, k4⟩ := k
          dsimp only at k1 k3 k4
          subst k1
          obtain ⟨Vm, Vl⟩ := v2
          dsimp only at hm k4
          subst hm
          exact good_new hs (sa.trans s) k3 (by rw [k2]; exact hlt) (e2.trans k2.symm) k4
  | tup c x =>
    simp only [Heap.plus, Store.arg, Package.add]
    obtain ⟨s, k⟩ := plusTuple_spec hs e3 c x
    generalize h.plusTuple p c x = w at s k ⊢
    obtain ⟨w1, w2⟩ := w
    cases ha : Package.addTuple ⟨M, h.read p.masses⟩ c x with
    | error e => rw [ha] at k; dsimp only at k; subst k; exact good_err hs s _
    | ok P =>
      rw [ha] at k
      have hP := addTuple_mat ha
      obtain ⟨Pm, Pl⟩ := P
      dsimp only at hP
      subst hP
      obtain ⟨r', k1, k2, k3, k4⟩ := k
      dsimp only at k1 k3 k4
      subst k1
      exact good_new hs s k3 (by rw [k2]; exact hlt) (e2.trans k2.symm) k4
  | num x => exact good_err hs (Same.refl h) _
  | str c => exact good_err hs (Same.refl h) _
  | other => exact good_err hs (Same.refl h) _

theorem good_addTo {h : Heap} (hs : Separate h) {i : Nat} {p : PkgObj} (hp : h.pkgs[i]? = some p) (a : HArg) :
    Good (h.addTo p a) (match (view h).pkg i, (view h).arg a with
      | some P, some A => match P.addTo A with
        | (.ok _, P') => (.ok none, (view h).update i P.mat.ident P'.masses)
        | (.error e, P') => (.error e, (view h).update i P.mat.ident P'.masses)
      | _, _ => (.error .nameError, view h)) := by
  obtain ⟨M, e1, e2, e3⟩ := view_pkg hs hp
  have same : ∀ e : PyErr, Good (.error e, h) (.error e, (view h).update i p.mat (h.read p.masses)) := fun e => by
    rw [update_same hp]; exact good_err hs (Same.refl h) e
  have wr : ∀ (o : Out) (l : List Num), Good (o, h.write p.masses l) (o, (view h).update i p.mat l) := fun o l => ⟨rfl, (write_pkg hs hp l).2, (write_pkg hs hp l).1⟩
  rw [e1]
  cases a with
  | pkg q =>
    simp only [Heap.addTo]
    cases hq : h.pkgs[q]? with
    | none => simp only [Store.arg, view_pkg_none hq]; exact good_err hs (Same.refl h) _
    | some Q =>
      obtain ⟨N, f1, f2, f3⟩ := arg_pkg hs hq
      rw [f1]
      simp only [Package.addTo, e2, f2]
      by_cases hpq : p.mat = Q.mat
      · rw [if_pos hpq, if_pos hpq]
        exact wr _ _
      · rw [if_neg hpq, if_neg hpq]
        have hne : p.masses ≠ Q.masses := by
          intro hh
          have hi : i < h.pkgs.length := by
            by_contra hh; rw [List.getElem?_eq_none (by omega)] at hp; cases hp
          have hj : q < h.pkgs.length := by
            by_contra hh; rw [List.getElem?_eq_none (by omega)] at hq; cases hq
          have hpi : h.pkgs[i] = p := by rw [List.getElem?_eq_getElem hi] at hp; exact Option.some.inj hp
          have hqi : h.pkgs[q] = Q := by rw [List.getElem?_eq_getElem hj] at hq; exact Option.some.inj hq
          have t := (List.nodup_iff_injective_get.1 hs.own) (a₁ := ⟨i, by simpa [pkgLists] using hi⟩) (a₂ := ⟨q, by simpa [pkgLists] using hj⟩) (by
            simp [pkgLists, hpi, hqi, hh])
          have : i = q := by simpa using congrArg Fin.val t
          subst this
          rw [hp] at hq
          cases hq
          exact hpq rfl
        rw [addToLoop_eq hne _ h (hs.lists _ (mem_pkgLists hp)) e3 f3, f3]
        generalize Package.addLoop ⟨N, h.read Q.masses⟩ (h.compounds Q.mat) ⟨M, h.read p.masses⟩ = v
        obtain ⟨v1, v2⟩ := v
        cases v1 with
        | error e => exact wr _ _
        | ok u => exact wr _ _
  | tup c x =>
    simp only [Heap.addTo, Store.arg, Package.addTo]
    rw [addTuple_eq e3]
    cases ha : Package.addTuple ⟨M, h.read p.masses⟩ c x with
    | error e => simp only [e2]; exact same e
    | ok P => simp only [e2]; exact wr _ _
  | num x => simp only [Store.arg, Package.addTo, e2]; exact same _
  | str c => simp only [Store.arg, Package.addTo, e2]; exact same _
  | other => simp only [Store.arg, Package.addTo, e2]; exact same _

theorem good_extract {h : Heap} (hs : Separate h) {i : Nat} {p : PkgObj} (hp : h.pkgs[i]? = some p) (a : HArg) :
    Good (h.extract i p a) (match (view h).pkg i, (view h).arg a with
      | some P, some A => match P.extract A with
        | (r, P') => ((view h).update i P.mat.ident P'.masses).result r
      | _, _ => (.error .nameError, view h)) := by
  obtain ⟨M, e1, e2, e3⟩ := view_pkg hs hp
  have hlt := hs.mats p (List.mem_of_getElem? hp)
  have hpl := mem_pkgLists hp
  have same : ∀ {h' : Heap} (e : PyErr), Same h h' → Good (.error e, h') (((view h).update i p.mat (h.read p.masses)).result (.error e)) := fun e hh => by
    rw [update_same hp]; exact good_err hs hh e
  rw [e1]
  cases a with
  | pkg q =>
    simp only [Heap.extract]
    cases hq : h.pkgs[q]? with
    | none => simp only [Store.arg, view_pkg_none hq]; exact good_err hs (Same.refl h) _
    | some Q =>
      obtain ⟨N, f1, f2, f3⟩ := arg_pkg hs hq
      rw [f1]
      simp only [Package.extract, e2]
      exact same _ (Same.refl h)
  | num x =>
    simp only [Heap.extract, Store.arg, Package.extract, e2]
    by_cases hf : x.isFloat = true
    · simp only [if_pos hf]
      by_cases hg : x.val > (pySum (h.read p.masses)).val
      · have hg' : x.val > (Package.mass ⟨M, h.read p.masses⟩).val := hg
        simp only [if_pos hg, if_pos hg']; exact same _ (Same.refl h)
      · have hg' : ¬ x.val > (Package.mass ⟨M, h.read p.masses⟩).val := hg
        simp only [if_neg hg, if_neg hg']
        have hd' : x.div (Package.mass ⟨M, h.read p.masses⟩) = x.div (pySum (h.read p.masses)) := rfl
        simp only [hd']
        cases hd : x.div (pySum (h.read p.masses)) with
        | error e => exact same _ (Same.refl h)
        | ok f =>
          dsimp only
          have s1 := same_alloc hs ((h.read p.masses).map (·.mul f))
          have f1 := fresh_alloc hs ((h.read p.masses).map (·.mul f))
          have r1 := s1.read _ (Or.inl hpl)
          have n1 := read_alloc_new h ((h.read p.masses).map (·.mul f))
          have hs1 := s1.sep hs
          have hp1 : (h.alloc ((h.read p.masses).map (·.mul f))).1.pkgs[i]? = some p := hp
          show Good (finish (.ok ⟨p.mat, h.lists.length⟩, (((h.alloc ((h.read p.masses).map (·.mul f))).1.alloc
            (((h.alloc ((h.read p.masses).map (·.mul f))).1.read p.masses).map (·.mul ((fl 1).sub f)))).1.rebind i
              ⟨p.mat, (h.alloc ((h.read p.masses).map (·.mul f))).1.lists.length⟩))) _
          rw [r1]
          generalize hA : (h.alloc ((h.read p.masses).map (·.mul f))).1 = A at s1 f1 r1 n1 hs1 hp1 ⊢
          have s2 := same_alloc hs1 ((h.read p.masses).map (·.mul ((fl 1).sub f)))
          have f2 := fresh_alloc hs1 ((h.read p.masses).map (·.mul ((fl 1).sub f)))
          have n2 := read_alloc_new A ((h.read p.masses).map (·.mul ((fl 1).sub f)))
          have hs2 := s2.sep hs1
          have hp2 : (A.alloc ((h.read p.masses).map (·.mul ((fl 1).sub f)))).1.pkgs[i]? = some p := hp1
          have g1 : Fresh (A.alloc ((h.read p.masses).map (·.mul ((fl 1).sub f)))).1 h.lists.length := s2.fresh f1
          have n3 : (A.alloc ((h.read p.masses).map (·.mul ((fl 1).sub f)))).1.read h.lists.length = (h.read p.masses).map (·.mul f) := by
            rw [read_alloc_old f1.lt, n1]
          have ne : A.lists.length ≠ h.lists.length := fun hh => by have := f1.lt; omega
          have sv : view (A.alloc ((h.read p.masses).map (·.mul ((fl 1).sub f)))).1 = view h := by rw [s2.view, s1.view]
          have sm : (A.alloc ((h.read p.masses).map (·.mul ((fl 1).sub f)))).1.mats = h.mats := by rw [s2.mats, s1.mats]
          generalize (A.alloc ((h.read p.masses).map (·.mul ((fl 1).sub f)))).1 = B at s2 f2 n2 hs2 hp2 g1 n3 sv sm ⊢
          obtain ⟨t1, t2⟩ := rebind_pkg hs2 hp2 f2
          have fr : Fresh (B.rebind i ⟨p.mat, A.lists.length⟩) h.lists.length := by
            refine ⟨g1.lt, ?_, g1.assay⟩
            have e : pkgLists (B.rebind i ⟨p.mat, A.lists.length⟩) = (pkgLists B).set i A.lists.length := by simp [pkgLists, Heap.rebind, List.map_set]
            rw [e]
            intro hm
            rcases List.mem_or_eq_of_mem_set hm with hm | hm
            exacts [g1.pkg hm, ne hm.symm]
          have := good_new (p := ⟨p.mat, h.lists.length⟩) t1 (Same.refl _) fr (show p.mat < B.mats.length from sm ▸ hlt) (M := M) e2 n3
          rw [t2, n2, sv] at this
          exact this
    · simp only [if_neg hf]; exact same _ (Same.refl h)
  | tup c x =>
    simp only [Heap.extract, Store.arg, Package.extract, e2, index_eq e3]
    by_cases hf : x.isFloat = true
    · simp only [if_pos hf]
      cases hi : M.index c with
      | error e => exact same _ (Same.refl h)
      | ok j =>
        dsimp only
        cases hy : (h.read p.masses)[j]? with
        | none => exact same _ (Same.refl h)
        | some y =>
          dsimp only
          by_cases hg : x.val > y.val
          · simp only [if_pos hg]; exact same _ (Same.refl h)
          · simp only [if_neg hg]
            obtain ⟨t1, t2⟩ := write_pkg hs hp ((h.read p.masses).set j (y.sub x))
            have hr : (h.write p.masses ((h.read p.masses).set j (y.sub x))).read p.masses = (h.read p.masses).set j (y.sub x) := read_write_same (hs.lists _ hpl)
            have hm : (h.write p.masses ((h.read p.masses).set j (y.sub x))).mats = h.mats := rfl
            rw [hr, List.length_set, ← t2]
            generalize h.write p.masses ((h.read p.masses).set j (y.sub x)) = A at t1 t2 hr hm ⊢
            have s1 := same_alloc t1 (List.replicate (h.read p.masses).length (fl 0))
            have f1 := fresh_alloc t1 (List.replicate (h.read p.masses).length (fl 0))
            have n1 := read_alloc_new A (List.replicate (h.read p.masses).length (fl 0))
            have ea : (A.alloc (List.replicate (h.read p.masses).length (fl 0))).2 = A.lists.length := rfl
            rw [ea, n1]
            generalize (A.alloc (List.replicate (h.read p.masses).length (fl 0))).1 = B at s1 f1 n1 ⊢
            have s2 := same_write_fresh f1 ((List.replicate (h.read p.masses).length (fl 0)).set j x)
            exact good_new (p := ⟨p.mat, A.lists.length⟩) t1 (s1.trans s2) (s2.fresh f1) (by rw [hm]; exact hlt) e2 (read_write_same f1.lt)
    · simp only [if_neg hf]; exact same _ (Same.refl h)
  | str c =>
    simp only [Heap.extract, Store.arg, Package.extract, e2, index_eq e3]
    cases hi : M.index c with
    | error e => exact same _ (Same.refl h)
    | ok j =>
      have hz : h.times p (fl 0) = (.ok ⟨p.mat, h.lists.length⟩, (h.alloc ((h.read p.masses).map (·.mul (fl 0)))).1) := by
        simp [Heap.times, fl]; rfl
      rw [hz]
      dsimp only
      have s1 := same_alloc hs ((h.read p.masses).map (·.mul (fl 0)))
      have f1 := fresh_alloc hs ((h.read p.masses).map (·.mul (fl 0)))
      have n1 := read_alloc_new h ((h.read p.masses).map (·.mul (fl 0)))
      have r1 := s1.read _ (Or.inl hpl)
      have hs1 := s1.sep hs
      have hp1 : (h.alloc ((h.read p.masses).map (·.mul (fl 0)))).1.pkgs[i]? = some p := hp
      rw [r1]
      generalize (h.alloc ((h.read p.masses).map (·.mul (fl 0)))).1 = A at s1 f1 n1 r1 hs1 hp1 ⊢
      cases hy : (h.read p.masses)[j]? with
      | none => exact same _ s1
      | some y =>
        dsimp only
        rw [n1]
        have s2 := same_write_fresh f1 (((h.read p.masses).map (·.mul (fl 0))).set j y)
        have f2 := s2.fresh f1
        have n2 : (A.write h.lists.length (((h.read p.masses).map (·.mul (fl 0))).set j y)).read h.lists.length = ((h.read p.masses).map (·.mul (fl 0))).set j y :=
          read_write_same f1.lt
        have r2 := s2.read _ (Or.inl (mem_pkgLists hp1))
        rw [r1] at r2
        have hp2 : (A.write h.lists.length (((h.read p.masses).map (·.mul (fl 0))).set j y)).pkgs[i]? = some p := hp1
        have hs2 := s2.sep hs1
        have sv : view (A.write h.lists.length (((h.read p.masses).map (·.mul (fl 0))).set j y)) = view h := by rw [s2.view, s1.view]
        have sm : (A.write h.lists.length (((h.read p.masses).map (·.mul (fl 0))).set j y)).mats = h.mats := by rw [s2.mats, s1.mats]
        rw [r2]
        generalize A.write h.lists.length (((h.read p.masses).map (·.mul (fl 0))).set j y) = B at s2 f2 n2 r2 hp2 hs2 sv sm ⊢
        obtain ⟨t1, t2⟩ := write_pkg hs2 hp2 ((h.read p.masses).set j (fl 0))
        have ne : p.masses ≠ h.lists.length := fun hh => by have := hs.lists _ hpl; omega
        have fr : Fresh (B.write p.masses ((h.read p.masses).set j (fl 0))) h.lists.length :=
          ⟨by simpa [Heap.write] using f2.lt, f2.pkg, f2.assay⟩
        have := good_new (p := ⟨p.mat, h.lists.length⟩) t1 (Same.refl _) fr (show p.mat < B.mats.length from sm ▸ hlt) (M := M) e2
          ((read_write_ne ne).trans n2)
        rw [t2, sv] at this
        exact this
  | other => simp only [Store.arg, Package.extract, e2]; exact same _ (Same.refl h)

/-- **C115**: each operation does to the packages exactly what it does to values of their own: same outcome, same new package, same receiver afterwards (also after an error),
and nothing else. -/
theorem C115_step (h : Heap) (hs : Separate h) (c : Cmd) (hc : IsOp c) :
    ∃ o s, (view h).step c = some (o, s) ∧ (h.step c).1 = o ∧ view (h.step c).2 = s ∧ Separate (h.step c).2 := by
  have fin : ∀ {r : Out × Heap} {s : Out × Store}, Good r s → ∃ o t, some s = some (o, t) ∧ r.1 = o ∧ view r.2 = t ∧ Separate r.2 :=
    fun {r s} g => ⟨s.1, s.2, rfl, g.1, g.2.1, g.2.2⟩
  cases c with
  | create m a mass n => exact fin (good_create hs m a mass n)
  | clone p =>
    simp only [Heap.step, Store.step]
    cases hp : h.pkgs[p]? with
    | none => rw [view_pkg_none hp]; exact fin (good_err hs (Same.refl h) _)
    | some P =>
      obtain ⟨M, e1, e2, e3⟩ := view_pkg hs hp
      rw [e1]
      exact fin (good_new (p := ⟨P.mat, h.lists.length⟩) hs (same_alloc hs _) (fresh_alloc hs _) (hs.mats P (List.mem_of_getElem? hp)) e2 (read_alloc_new h _))
  | plus p a =>
    simp only [Heap.step]
    cases hp : h.pkgs[p]? with
    | none => simp only [Store.step, view_pkg_none hp]; exact fin (good_err hs (Same.refl h) _)
    | some P => exact fin (good_plus hs hp a)
  | times p k =>
    simp only [Heap.step, Store.step]
    cases hp : h.pkgs[p]? with
    | none => rw [view_pkg_none hp]; exact fin (good_err hs (Same.refl h) _)
    | some P =>
      obtain ⟨M, e1, e2, e3⟩ := view_pkg hs hp
      rw [e1]
      simp only [Heap.times, Package.mul]
      by_cases hf : k.isFloat = true
      · simp only [if_pos hf]
        by_cases hg : k.val < 0
        · simp only [if_pos hg]; exact fin (good_err hs (Same.refl h) _)
        · simp only [if_neg hg]
          exact fin (good_new (p := ⟨P.mat, h.lists.length⟩) hs (same_alloc hs _) (fresh_alloc hs _) (hs.mats P (List.mem_of_getElem? hp)) e2 (read_alloc_new h _))
      · simp only [if_neg hf]; exact fin (good_err hs (Same.refl h) _)
  | addTo p a =>
    simp only [Heap.step]
    cases hp : h.pkgs[p]? with
    | none => simp only [Store.step, view_pkg_none hp]; exact fin (good_err hs (Same.refl h) _)
    | some P => exact fin (good_addTo hs hp a)
  | extract p a =>
    simp only [Heap.step]
    cases hp : h.pkgs[p]? with
    | none => simp only [Store.step, view_pkg_none hp]; exact fin (good_err hs (Same.refl h) _)
    | some P => exact fin (good_extract hs hp a)
  | clear p =>
    simp only [Heap.step, Store.step]
    cases hp : h.pkgs[p]? with
    | none => rw [view_pkg_none hp]; exact fin (good_err hs (Same.refl h) _)
    | some P =>
      obtain ⟨M, e1, e2, e3⟩ := view_pkg hs hp
      rw [e1]
      simp only [Package.clear, e2, update_same hp]
      exact fin (good_err hs (Same.refl h) _)
  | list l => cases hc
  | setItem l i x => cases hc
  | construct m l => cases hc
  | addAssay m n l => cases hc

/-- **C115**: the same for every program: whatever is created, cloned, added, multiplied and extracted in whatever order, each package behaves as a value of its own. -/
theorem C115_history (cs : List Cmd) (hc : ∀ c ∈ cs, IsOp c) : ∀ (h : Heap), Separate h →
    ∃ os s, (view h).run cs = some (os, s) ∧ (h.run cs).1 = os ∧ view (h.run cs).2 = s ∧ Separate (h.run cs).2 := by
  induction cs with
  | nil => exact fun h hs => ⟨[], view h, rfl, rfl, rfl, hs⟩
  | cons c cs ih =>
    intro h hs
    obtain ⟨o, s, h1, h2, h3, h4⟩ := C115_step h hs c (hc c List.mem_cons_self)
    obtain ⟨os, s', k1, k2, k3, k4⟩ := ih (fun c hh => hc c (List.mem_cons_of_mem _ hh)) (h.step c).2 h4
    rw [h3] at k1
    refine ⟨o :: os, s', ?_, ?_, k3, k4⟩
    · simp only [Store.run, h1, k1]
    · simp only [Heap.run, h2, k2]

/-- Materials as they come from their files, before there are packages. -/
theorem C115_start (mats : List MatObj) (lists : List (List Num)) (ha : ∀ o ∈ mats, ∀ e ∈ o.assays, e.2 < lists.length) : Separate ⟨mats, [], lists⟩ := by
  refine ⟨List.nodup_nil, fun a h => (nomatch h), fun a h => (nomatch h), ?_, fun a h => (nomatch h)⟩
  intro a h
  simp only [assayLists, List.mem_flatMap, List.mem_map] at h
  obtain ⟨o, ho, e, he, rfl⟩ := h
  exact ha o ho e he

/-- The package that a statement may change. -/
def receiver : Cmd → Option Nat
  | .addTo p _ | .extract p _ | .clear p => some p
  | _ => none

theorem result_keeps (s : Store) (r : Res Package) : (s.result r).2.mats = s.mats ∧ ∀ j < s.pkgs.length, (s.result r).2.pkgs[j]? = s.pkgs[j]? := by
  cases r with
  | error e => exact ⟨rfl, fun _ _ => rfl⟩
  | ok P => exact ⟨rfl, fun j hj => List.getElem?_append_left hj⟩

theorem step_keeps {s s' : Store} {c : Cmd} {o : Out} (h : s.step c = some (o, s')) :
    s'.mats = s.mats ∧ s.pkgs.length ≤ s'.pkgs.length ∧ ∀ j < s.pkgs.length, receiver c ≠ some j → s'.pkgs[j]? = s.pkgs[j]? := by
  have len : ∀ (s : Store) (r : Res Package), s.pkgs.length ≤ (s.result r).2.pkgs.length := by
    intro s r; cases r <;> simp [Store.result, Store.push]
  have res : ∀ (r : Res Package), s.result r = (o, s') → s'.mats = s.mats ∧ s.pkgs.length ≤ s'.pkgs.length ∧ ∀ j < s.pkgs.length, receiver c ≠ some j → s'.pkgs[j]? = s.pkgs[j]? := by
    intro r hr
    have e : s' = (s.result r).2 := by rw [hr]
    rw [e]
    exact ⟨(result_keeps s r).1, len s r, fun j hj _ => (result_keeps s r).2 j hj⟩
  have nop : ∀ {e : Out}, (e, s) = (o, s') → s'.mats = s.mats ∧ s.pkgs.length ≤ s'.pkgs.length ∧ ∀ j < s.pkgs.length, receiver c ≠ some j → s'.pkgs[j]? = s.pkgs[j]? := by
    intro e he
    have : s' = s := by cases he; rfl
    rw [this]; exact ⟨rfl, le_refl _, fun _ _ _ => rfl⟩
  have upd : ∀ (p m : Nat) (l : List Num), receiver c = some p → ∀ j, receiver c ≠ some j → (s.update p m l).pkgs[j]? = s.pkgs[j]? := by
    intro p m l hp j hj
    exact List.getElem?_set_ne (by rintro rfl; exact hj hp)
  cases c with
  | create m a mass n =>
    have h := Option.some.inj h
    split at h
    · exact nop h
    · exact res _ h
  | clone p =>
    have h := Option.some.inj h
    split at h
    · exact nop h
    · exact res _ h
  | plus p a =>
    have h := Option.some.inj h
    split at h
    · exact res _ h
    · exact nop h
  | times p k =>
    have h := Option.some.inj h
    split at h
    · exact nop h
    · exact res _ h
  | addTo p a =>
    have h := Option.some.inj h
    split at h
    · split at h
      · cases h; exact ⟨rfl, by simp [Store.update], fun j _ hj => upd p _ _ rfl j hj⟩
      · cases h; exact ⟨rfl, by simp [Store.update], fun j _ hj => upd p _ _ rfl j hj⟩
    · exact nop h
  | extract p a =>
    have h := Option.some.inj h
    split at h
    · rename_i P A _ _
      have e : s' = ((s.update p P.mat.ident (P.extract A).2.masses).result (P.extract A).1).2 := (congrArg Prod.snd h).symm
      have hl : (s.update p P.mat.ident (P.extract A).2.masses).pkgs.length = s.pkgs.length := by simp [Store.update]
      rw [e]
      refine ⟨(result_keeps _ _).1, le_trans (le_of_eq hl.symm) (len _ _), fun j hj hr => ?_⟩
      rw [(result_keeps _ _).2 j (by rw [hl]; exact hj), upd p _ _ rfl j hr]
    · exact nop h
  | clear p =>
    have h := Option.some.inj h
    split at h
    · exact nop h
    · split at h
      · cases h; exact ⟨rfl, by simp [Store.update], fun j _ hj => upd p _ _ rfl j hj⟩
      · cases h; exact ⟨rfl, by simp [Store.update], fun j _ hj => upd p _ _ rfl j hj⟩
  | list l => cases h
  | setItem l i x => cases h
  | construct m l => cases h
  | addAssay m n l => cases h

/-- The material and the masses of a package. -/
def contents (h : Heap) (j : Nat) : Option (Nat × List Num) := match h.pkgs[j]? with
  | none => none
  | some p => some (p.mat, h.read p.masses)

/-- The masses of an assay. -/
def assayOf (h : Heap) (m : Nat) (name : Str) : Option (List Num) := match h.mats[m]? with
  | none => none
  | some o => match o.assays.lookup name with
    | none => none
    | some a => some (h.read a)

theorem contents_view (h : Heap) (j : Nat) : contents h j = (view h).pkgs[j]? := by
  simp only [contents, view, List.getElem?_map]
  cases h.pkgs[j]? <;> rfl

theorem assay_view (h : Heap) (m : Nat) (name : Str) : assayOf h m name = (match (view h).mats[m]? with
    | none => none
    | some M => M.assays.lookup name) := by
  simp only [assayOf, view, List.getElem?_mapIdx]
  cases h.mats[m]? with
  | none => rfl
  | some o =>
    simp only [Option.map_some, lookup_map]
    cases o.assays.lookup name <;> rfl

/-- **C115**: a program changes only the packages that it adds to or extracts from: every other package keeps its masses (a clone, a sum, a multiple and an extract are independent
of the packages they come from), and no operation changes an assay. -/
theorem C115_untouched (cs : List Cmd) : ∀ (h : Heap), Separate h → (∀ c ∈ cs, IsOp c) → ∀ j < h.pkgs.length, (∀ c ∈ cs, receiver c ≠ some j) →
    contents (h.run cs).2 j = contents h j ∧ ∀ m name, assayOf (h.run cs).2 m name = assayOf h m name := by
  induction cs with
  | nil => exact fun h _ _ j _ _ => ⟨rfl, fun _ _ => rfl⟩
  | cons c cs ih =>
    intro h hs hc j hj hr
    obtain ⟨o, s, h1, h2, h3, h4⟩ := C115_step h hs c (hc c List.mem_cons_self)
    obtain ⟨k1, k2, k3⟩ := step_keeps h1
    rw [view_pkgs_length] at k2 k3
    rw [← h3, view_pkgs_length] at k2
    obtain ⟨i1, i2⟩ := ih (h.step c).2 h4 (fun c hh => hc c (List.mem_cons_of_mem _ hh)) j (by omega) (fun c hh => hr c (List.mem_cons_of_mem _ hh))
    have e : (h.run (c :: cs)).2 = ((h.step c).2.run cs).2 := rfl
    rw [e, i1]
    refine ⟨?_, fun m name => ?_⟩
    · rw [contents_view, contents_view, h3, k3 j hj (hr c List.mem_cons_self)]
    · rw [i2, assay_view, assay_view, h3, k1]

/-! ## The caller's lists -/

/-- **C115**: `MaterialPackage(material, l)` with a list that nothing else holds gives an independent package; `add_assay` with a list that no package holds adds that assay and
leaves packages alone; a list that neither a package nor an assay holds can be changed freely. -/
theorem C115_own_lists (h : Heap) (hs : Separate h) (a : Nat) (ha : a < h.lists.length) (h1 : a ∉ pkgLists h) :
    (a ∉ assayLists h → ∀ m < h.mats.length, Separate (h.step (.construct m a)).2 ∧ contents (h.step (.construct m a)).2 h.pkgs.length = some (m, h.read a) ∧
      ∀ j < h.pkgs.length, contents (h.step (.construct m a)).2 j = contents h j) ∧
    (∀ m name, Separate (h.step (.addAssay m name a)).2 ∧ ∀ j, contents (h.step (.addAssay m name a)).2 j = contents h j) ∧
    (a ∉ assayLists h → ∀ i x, Separate (h.step (.setItem a i x)).2 ∧ (∀ j, contents (h.step (.setItem a i x)).2 j = contents h j) ∧
      ∀ m name, assayOf (h.step (.setItem a i x)).2 m name = assayOf h m name) := by
  refine ⟨fun h2 m hm => ?_, fun m name => ?_, fun h2 i x => ?_⟩
  · simp only [Heap.step, if_pos hm, finish]
    refine ⟨register_sep hs ⟨ha, h1, h2⟩ hm, ?_, fun j hj => ?_⟩
    · simp [contents, Heap.register, Heap.read]
    · simp only [contents, Heap.register, List.getElem?_append_left hj]; rfl
  · simp only [Heap.step, Heap.addAssay]
    cases hm : h.mats[m]? with
    | none => exact ⟨hs, fun j => rfl⟩
    | some o =>
      dsimp only
      split
      · exact ⟨hs, fun j => rfl⟩
      · split
        · exact ⟨hs, fun j => rfl⟩
        · refine ⟨?_, fun j => rfl⟩
          have mem : ∀ b, b ∈ assayLists { h with mats := h.mats.set m { o with assays := o.assays ++ [(name, a)] } } → b ∈ assayLists h ∨ b = a := by
            intro b hb
            simp only [assayLists, List.mem_flatMap, List.mem_map] at hb ⊢
            obtain ⟨o', ho', e, he, rfl⟩ := hb
            rcases List.mem_or_eq_of_mem_set ho' with ho' | rfl
            · exact Or.inl ⟨o', ho', e, he, rfl⟩
            · rcases List.mem_append.1 he with he | he
              · exact Or.inl ⟨o, List.mem_of_getElem? hm, e, he, rfl⟩
              · rw [List.mem_singleton] at he; rw [he]; exact Or.inr rfl
          refine ⟨hs.own, fun b hb hb' => ?_, hs.lists, fun b hb => ?_, fun p hp => ?_⟩
          · rcases mem b hb' with hb' | rfl
            exacts [hs.apart b hb hb', h1 hb]
          · rcases mem b hb with hb | rfl
            exacts [hs.assays b hb, ha]
          · simpa using hs.mats p hp
  · simp only [Heap.step]
    split
    · have s := same_write_fresh ⟨ha, h1, h2⟩ ((h.read a).set i x)
      refine ⟨s.sep hs, fun j => ?_, fun m name => ?_⟩
      · rw [contents_view, contents_view, s.view]
      · rw [assay_view, assay_view, s.view]
    · exact ⟨hs, fun _ => rfl, fun _ _ => rfl⟩

/-! ## Shared lists -/

/-- A material of two compounds with one assay, and a list of the caller's. -/
def ex : Heap := ⟨[⟨["Fe".toList, "SiO2".toList], [("A".toList, 0)], ["Fe".toList, "O".toList, "Si".toList]⟩], [], [[fl 60, fl 40], [fl 10, fl 20]]⟩

/-- **C115 is violated** for lists that the caller passes: the constructor and `add_assay` keep the caller's list and copy nothing.  Two packages made of one list: extracting from the
first takes the iron out of the second too.  A package's list passed as an assay: extracting from the package changes the assay.  A list changed after it was passed: the package
changes. -/
theorem C115_shared_violated :
    contents (ex.run [.construct 0 1, .construct 0 1]).2 1 = some (0, [fl 10, fl 20]) ∧
    contents (ex.run [.construct 0 1, .construct 0 1, .extract 0 (.str "Fe".toList)]).2 1 = some (0, [fl 0, fl 20]) ∧
    assayOf (ex.run [.construct 0 1, .addAssay 0 "B".toList 1]).2 0 "B".toList = some [fl 10, fl 20] ∧
    assayOf (ex.run [.construct 0 1, .addAssay 0 "B".toList 1, .extract 0 (.tup "SiO2".toList (fl 5))]).2 0 "B".toList = some [fl 10, fl 15] ∧
    contents (ex.run [.construct 0 1, .setItem 1 0 (fl 99)]).2 0 = some (0, [fl 99, fl 20]) := by decide +kernel

/-- A concrete case: create, clone, extract from the original, add to the clone. -/
example : Separate ex ∧ contents (ex.run [.create 0 (some "A".toList) (fl 200) true, .clone 0, .extract 0 (.num (fl 100)), .addTo 2 (.tup "Fe".toList (fl 7))]).2 1 =
    some (0, [fl 120, fl 80]) := by
  refine ⟨C115_start _ _ (by decide), by decide +kernel⟩

example : contents ((ex.run [.create 0 (some "A".toList) (fl 200) true, .clone 0]).2.run [.extract 0 (.num (fl 100)), .addTo 0 (.tup "Fe".toList (fl 7)), .plus 0 (.pkg 1)]).2 1 =
    contents (ex.run [.create 0 (some "A".toList) (fl 200) true, .clone 0]).2 1 := by
  obtain ⟨_, _, _, _, _, hs⟩ := C115_history [.create 0 (some "A".toList) (fl 200) true, .clone 0] (by simp [IsOp]) ex (C115_start _ _ (by decide))
  exact (C115_untouched _ _ hs (by simp [IsOp]) 1 (by decide +kernel) (by simp [receiver])).1

end Auxi.ChemHeap.Props
