import Verif.Proofs.PsdHeap

/-! # C119: psd and slurry packages do not share their contents -/
namespace Auxi.PsdHeap.Props
open Auxi Auxi.ArrHeap Auxi.ArrHeap.Spec Auxi.ArrHeap.Proofs Auxi.PsdHeap Auxi.PsdHeap.Spec Auxi.PsdHeap.Proofs Auxi.Psd

/-! ## `psd.py` -/

theorem mat_view {h : PHeap} {m : Nat} (hm : m < h.mats.length) :
    mat (view h) m = some ⟨m, h.mats[m].info, h.mats[m].assays.map fun e => (e.1, h.read e.2)⟩ := by simp only [mat, view_mat hm]

theorem pkg_view {h : PHeap} (hs : Separate h) {i : Nat} {p : PPkg} (hp : h.pkgs[i]? = some p) :
    ∃ M : Material, pkg (view h) i = some ⟨M, h.read p.arr⟩ ∧ M.ident = p.mat ∧ M.classes = classes id h p.mat := by
  have hm := hs.mats p (List.mem_of_getElem? hp)
  refine ⟨⟨p.mat, h.mats[p.mat].info, h.mats[p.mat].assays.map fun e => (e.1, h.read e.2)⟩, ?_, rfl, ?_⟩
  · simp only [pkg, view_pkg hp, mat_view hm]
  · simp [classes, hm]

theorem pkg_none {h : PHeap} {i : Nat} (hp : h.pkgs[i]? = none) : pkg (view h) i = none := by simp only [pkg, view_pkg_none hp]

theorem good_res {h h' : PHeap} (hs : Separate h) (hh : Same h h') {m a : Nat} (hm : m < h.mats.length) (f : Fresh h' a) {M : Material} (hi : M.ident = m)
    {l : List F64} (hl : h'.read a = l) : Good (finish (.ok ⟨m, (), a⟩, h')) (result (view h) (.ok ⟨M, l⟩)) := by
  have := good_new hs hh hm () f
  rw [hl] at this
  simp only [result, hi, view_pkgs_length]
  exact this

theorem good_create {h : PHeap} (hs : Separate h) (m : Nat) (a : Option Str) (mass : F64) (n : Bool) :
    Good (createPackage h m a mass n) (match mat (view h) m with
      | none => (.error .nameError, view h)
      | some M => result (view h) (M.createPackage a mass n)) := by
  unfold createPackage
  cases hm : h.mats[m]? with
  | none =>
    have : mat (view h) m = none := by simp [mat, view, hm]
    rw [this]; exact good_err hs (Same.refl h) _
  | some o =>
    have hlt := lt_of_get hm
    have e : mat (view h) m = some ⟨m, o.info, o.assays.map fun e => (e.1, h.read e.2)⟩ := by simp [mat, view, hm]
    rw [e]
    dsimp only
    cases a with
    | none => exact good_res hs (same_alloc hs _) hlt (fresh_alloc hs _) rfl (read_alloc_new h _)
    | some name =>
      simp only [Material.createPackage, Material.assayTotal, Material.assay, lookup_map]
      cases ha : o.assays.lookup name with
      | none => cases n <;> exact good_err hs (Same.refl h) _
      | some a =>
        simp only [Option.map_some]
        cases n <;> exact good_res hs (same_alloc hs _) hlt (fresh_alloc hs _) rfl (read_alloc_new h _)

theorem good_plus {h : PHeap} (hs : Separate h) {i : Nat} {p : PPkg} (hp : h.pkgs[i]? = some p) (a : HArg) :
    Good (plus h p a) (match pkg (view h) i, arg (view h) a with
      | some P, some A => result (view h) (P.add A)
      | _, _ => (.error .nameError, view h)) := by
  obtain ⟨M, e1, e2, e3⟩ := pkg_view hs hp
  have hlt := hs.mats p (List.mem_of_getElem? hp)
  rw [e1]
  cases a with
  | pkg q =>
    simp only [plus, arg]
    cases hq : h.pkgs[q]? with
    | none => rw [pkg_none hq]; exact good_err hs (Same.refl h) _
    | some Q =>
      obtain ⟨N, f1, f2, f3⟩ := pkg_view hs hq
      rw [f1]
      simp only [Option.map_some, Package.add, e2, f2]
      by_cases hpq : p.mat = Q.mat
      · simp only [if_pos hpq]
        cases vadd (h.read p.arr) (h.read Q.arr) with
        | error e => exact good_err hs (Same.refl h) _
        | ok l => exact good_res hs (same_alloc hs _) hlt (fresh_alloc hs _) e2 (read_alloc_new h _)
      · simp only [if_neg hpq, cloned_eq]
        have sa := same_alloc hs (h.read p.arr)
        have := plusLoop_spec (cls := id) (p := p) (q := Q) (classes id h Q.mat) (h.alloc (h.read p.arr)).1 ⟨p.mat, (), h.arrays.length⟩ (M := M) (N := N) (sa.sep hs) rfl
          (fresh_alloc hs _) (mem_pkgArrays hq) e3 f3
        rw [read_alloc_new, sa.read _ (Or.inl (mem_pkgArrays hq))] at this
        rw [f3]
        obtain ⟨s, k⟩ := this
        change Good (finish (plusLoop id p Q (classes id h Q.mat) ⟨p.mat, (), h.arrays.length⟩ (h.alloc (h.read p.arr)).1)) _
        generalize plusLoop id p Q (classes id h Q.mat) ⟨p.mat, (), h.arrays.length⟩ (h.alloc (h.read p.arr)).1 = w at s k ⊢
        obtain ⟨w1, w2⟩ := w
        have hm := addLoop_mat ⟨N, h.read Q.arr⟩ (classes id h Q.mat) ⟨M, h.read p.arr⟩
        generalize Package.addLoop ⟨N, h.read Q.arr⟩ (classes id h Q.mat) ⟨M, h.read p.arr⟩ = v at k hm ⊢
        obtain ⟨v1, v2⟩ := v
        cases v1 with
        | error e => dsimp only at k; subst k; exact good_err hs (sa.trans s) _
        | ok u =>
          obtain ⟨a', k1, k3, k4⟩ := k
          dsimp only at k1 k3 k4
          subst k1
          obtain ⟨Vm, Vl⟩ := v2
          dsimp only at hm k4
          subst hm
          exact good_res hs (sa.trans s) hlt k3 e2 k4
  | tup c b x =>
    simp only [plus, arg, Package.add]
    obtain ⟨s, k⟩ := plusTuple_spec hs e3 c b x
    generalize plusTuple id h p c b x = w at s k ⊢
    obtain ⟨w1, w2⟩ := w
    cases ha : Package.addTuple ⟨M, h.read p.arr⟩ c b x with
    | error e => rw [ha] at k; dsimp only at k; subst k; exact good_err hs s _
    | ok P =>
      rw [ha] at k
      have hP := addTuple_mat ha
      obtain ⟨Pm, Pl⟩ := P
      dsimp only at hP
      subst hP
      obtain ⟨a', k1, k3, k4⟩ := k
      dsimp only at k1 k3 k4
      subst k1
      exact good_res hs s hlt k3 e2 k4
  | strTup c b x => exact good_err hs (Same.refl h) _
  | num b x => exact good_err hs (Same.refl h) _
  | str v => exact good_err hs (Same.refl h) _
  | other => exact good_err hs (Same.refl h) _

theorem addTuple_eq {h : PHeap} {p : PPkg} {M : Material} (hM : M.classes = classes id h p.mat) (c : ℚ) (b : Bool) (x : F64) :
    addTuple h p c b x = (match Package.addTuple ⟨M, h.read p.arr⟩ c b x with
      | .error e => (.error e, h)
      | .ok P => (.ok (), h.write p.arr P.masses)) := by
  simp only [addTuple, Package.addTuple, index_eq hM]
  split
  · cases hi : M.index c with
    | error e => rfl
    | ok i =>
      dsimp only
      cases hy : (h.read p.arr)[i]? <;> rfl
  · rfl

theorem addToLoop_eq {p q : PPkg} (hpq : p.arr ≠ q.arr) (cs : List ℚ) : ∀ (h : PHeap) {M N : Material}, p.arr < h.arrays.length → M.classes = classes id h p.mat →
    N.classes = classes id h q.mat → addToLoop p q cs h = ((Package.addLoop ⟨N, h.read q.arr⟩ cs ⟨M, h.read p.arr⟩).1,
      h.write p.arr (Package.addLoop ⟨N, h.read q.arr⟩ cs ⟨M, h.read p.arr⟩).2.masses) := by
  induction cs with
  | nil => intro h M N _ _ _; simp only [addToLoop, Package.addLoop]; rw [write_read]
  | cons c cs ih =>
    intro h M N hl hM hN
    simp only [addToLoop, Package.addLoop]
    rw [hM]
    split
    · dsimp only; rw [write_read]
    · rw [classMass_eq hN]
      cases hx : Package.classMass ⟨N, h.read q.arr⟩ c with
      | error e => dsimp only; rw [write_read]
      | ok x =>
        dsimp only
        rw [addTuple_eq hM]
        cases ha : Package.addTuple ⟨M, h.read p.arr⟩ c true x with
        | error e => dsimp only; rw [write_read]
        | ok P =>
          dsimp only
          have hP := addTuple_mat ha
          obtain ⟨Pm, Pl⟩ := P
          dsimp only at hP
          subst hP
          have hw : (h.write p.arr Pl).read p.arr = Pl := read_write_same hl
          have hq : (h.write p.arr Pl).read q.arr = h.read q.arr := read_write_ne hpq
          rw [ih (h.write p.arr Pl) (by simpa [Heap.write] using hl) hM hN, hw, hq, write_write]

theorem arr_ne {h : PHeap} (hs : Separate h) {i j : Nat} {p q : PPkg} (hp : h.pkgs[i]? = some p) (hq : h.pkgs[j]? = some q) (hne : p.mat ≠ q.mat) : p.arr ≠ q.arr := by
  intro hh
  have t := (List.nodup_iff_injective_get.1 hs.own) (a₁ := ⟨i, by simpa [pkgArrays] using lt_of_get hp⟩) (a₂ := ⟨j, by simpa [pkgArrays] using lt_of_get hq⟩) (by
    have a := lt_of_get hp
    have b := lt_of_get hq
    have pi : h.pkgs[i] = p := by rw [List.getElem?_eq_getElem a] at hp; exact Option.some.inj hp
    have qj : h.pkgs[j] = q := by rw [List.getElem?_eq_getElem b] at hq; exact Option.some.inj hq
    simp [pkgArrays, pi, qj, hh])
  have e : i = j := by simpa using congrArg Fin.val t
  subst e
  rw [hp] at hq
  cases hq
  exact hne rfl

theorem good_addTo {h : PHeap} (hs : Separate h) {i : Nat} {p : PPkg} (hp : h.pkgs[i]? = some p) (a : HArg) :
    Good (addTo h i p a) (match pkg (view h) i, arg (view h) a with
      | some P, some A => match P.addTo A with
        | (.ok _, P') => (.ok none, become (view h) i P')
        | (.error e, P') => (.error e, become (view h) i P')
      | _, _ => (.error .nameError, view h)) := by
  obtain ⟨M, e1, e2, e3⟩ := pkg_view hs hp
  have same : ∀ e : PyErr, Good (.error e, h) (.error e, become (view h) i ⟨M, h.read p.arr⟩) := fun e => by
    simp only [become, e2]; exact good_upd (Upd.refl hs hp) _
  have wr : ∀ (o : Out) (l : List F64), Good (o, h.write p.arr l) (o, become (view h) i ⟨M, l⟩) := fun o l => by
    simp only [become, e2]; exact good_upd (write_pkg hs hp l) _
  rw [e1]
  cases a with
  | pkg q =>
    simp only [addTo, arg]
    cases hq : h.pkgs[q]? with
    | none => rw [pkg_none hq]; exact good_err hs (Same.refl h) _
    | some Q =>
      obtain ⟨N, f1, f2, f3⟩ := pkg_view hs hq
      rw [f1]
      simp only [Option.map_some, Package.addTo, e2, f2]
      by_cases hpq : p.mat = Q.mat
      · simp only [if_pos hpq]
        cases vadd (h.read p.arr) (h.read Q.arr) with
        | error e => exact same e
        | ok l =>
          have u := Same.upd (same_alloc hs l) (rebind_pkg ((same_alloc hs l).sep hs) hp (fresh_alloc hs l) ())
          rw [read_alloc_new] at u
          have := good_upd u (.ok none)
          simp only [become, e2]
          exact this
      · simp only [if_neg hpq]
        rw [addToLoop_eq (arr_ne hs hp hq hpq) _ h (hs.arrays _ (mem_pkgArrays hp)) e3 f3, f3]
        have hm := addLoop_mat ⟨N, h.read Q.arr⟩ (classes id h Q.mat) ⟨M, h.read p.arr⟩
        generalize Package.addLoop ⟨N, h.read Q.arr⟩ (classes id h Q.mat) ⟨M, h.read p.arr⟩ = v at hm ⊢
        obtain ⟨v1, Vm, Vl⟩ := v
        dsimp only at hm
        subst hm
        cases v1 with
        | error e => exact wr _ _
        | ok u => exact wr _ _
  | tup c b x =>
    simp only [addTo, arg, Package.addTo, addTuple_eq e3]
    cases ha : Package.addTuple ⟨M, h.read p.arr⟩ c b x with
    | error e => exact same e
    | ok P =>
      have hP := addTuple_mat ha
      obtain ⟨Pm, Pl⟩ := P
      dsimp only at hP
      subst hP
      exact wr _ _
  | strTup c b x => exact same _
  | num b x => exact same _
  | str v => exact same _
  | other => exact same _

theorem good_arr {h : PHeap} (hs : Separate h) {i : Nat} {p : PPkg} (hp : h.pkgs[i]? = some p) {M : Material} (e2 : M.ident = p.mat) (w : Res Nat × PHeap) (R : Res Package × Package)
    (u : Upd h w.2 i p.mat p.extra R.2.masses) (hm : R.2.mat = M) (k : match R.1 with
      | .error e => w.1 = .error e
      | .ok r => r.mat = M ∧ ∃ a, w.1 = .ok a ∧ Fresh w.2 a ∧ w.2.read a = r.masses) :
    Good (finishArr p.mat () w) (match R with
      | (r, P') => result (become (view h) i P') r) := by
  obtain ⟨w1, w2⟩ := w
  obtain ⟨r, Pm, Pl⟩ := R
  dsimp only at u hm k
  subst hm
  cases r with
  | error e =>
    dsimp only at k
    subst k
    simp only [finishArr, result, become, e2]
    exact good_upd u _
  | ok r =>
    obtain ⟨km, a, k1, k2, k3⟩ := k
    subst k1
    simp only [finishArr, result, become, km, e2]
    have := good_upd_new u (hs.mats p (List.mem_of_getElem? hp)) () k2
    rw [k3] at this
    simp only [Store.update, List.length_set, view_pkgs_length]
    exact this

theorem good_extract {h : PHeap} (hs : Separate h) {i : Nat} {p : PPkg} (hp : h.pkgs[i]? = some p) (a : HArg) :
    Good (extract h i p a) (match pkg (view h) i, arg (view h) a with
      | some P, some A => match P.extract A with
        | (r, P') => result (become (view h) i P') r
      | _, _ => (.error .nameError, view h)) := by
  obtain ⟨M, e1, e2, e3⟩ := pkg_view hs hp
  have same : ∀ e : PyErr, Good (.error e, h) (.error e, become (view h) i ⟨M, h.read p.arr⟩) := fun e => by
    simp only [become, e2]; exact good_upd (Upd.refl hs hp) _
  rw [e1]
  cases a with
  | pkg q =>
    simp only [extract, arg]
    cases hq : h.pkgs[q]? with
    | none => rw [pkg_none hq]; exact good_err hs (Same.refl h) _
    | some Q => obtain ⟨N, f1, f2, f3⟩ := pkg_view hs hq; rw [f1]; exact same _
  | num b x =>
    simp only [extract, arg]
    by_cases hb : b = true
    · by_cases hg : x.gt (sum (h.read p.arr)) = true
      · have E : Package.extract ⟨M, h.read p.arr⟩ (.num b x) = (.error .exception, ⟨M, h.read p.arr⟩) := by simp [Package.extract, Package.mass, hb, hg]
        rw [E, if_pos hb, if_pos hg]; exact same _
      · have E : Package.extract ⟨M, h.read p.arr⟩ (.num b x) = (.ok ⟨M, (h.read p.arr).map (·.mul (x.div (sum (h.read p.arr))))⟩,
            ⟨M, (h.read p.arr).map (·.mul ((F64.fin 1).sub (x.div (sum (h.read p.arr)))))⟩) := by simp [Package.extract, Package.mass, hb, hg]
        rw [E, if_pos hb, if_neg hg]
        generalize x.div (sum (h.read p.arr)) = f
        have sa := same_alloc hs ((h.read p.arr).map (·.mul f))
        have fa := fresh_alloc hs ((h.read p.arr).map (·.mul f))
        have ra := read_alloc_new h ((h.read p.arr).map (·.mul f))
        have rp : (h.alloc ((h.read p.arr).map (·.mul f))).1.read p.arr = h.read p.arr := sa.read _ (Or.inl (mem_pkgArrays hp))
        have hp' : (h.alloc ((h.read p.arr).map (·.mul f))).1.pkgs[i]? = some p := hp
        have eA : h.alloc ((h.read p.arr).map (·.mul f)) = ((h.alloc ((h.read p.arr).map (·.mul f))).1, h.arrays.length) := rfl
        rw [eA]
        dsimp only
        generalize (h.alloc ((h.read p.arr).map (·.mul f))).1 = A at sa fa ra rp hp' ⊢
        rw [rp]
        generalize (h.read p.arr).map (·.mul ((F64.fin 1).sub f)) = l
        have sb := same_alloc (sa.sep hs) l
        have fb := fresh_alloc (sa.sep hs) l
        have rb := read_alloc_new A l
        have fr := sb.fresh fa
        have rr : (A.alloc l).1.read h.arrays.length = (h.read p.arr).map (·.mul f) := by rw [read_alloc_old fa.lt, ra]
        have hp2 : (A.alloc l).1.pkgs[i]? = some p := hp'
        have eB : A.alloc l = ((A.alloc l).1, A.arrays.length) := rfl
        rw [eB]
        dsimp only
        have ne : A.arrays.length ≠ h.arrays.length := by have := fa.lt; omega
        have u := Same.upd (sa.trans sb) (rebind_pkg ((sa.trans sb).sep hs) hp2 fb ())
        rw [rb] at u
        have g := good_upd_new u (hs.mats p (List.mem_of_getElem? hp)) () (fresh_rebind fr ne)
        have rr' : ((A.alloc l).1.rebind i ⟨p.mat, (), A.arrays.length⟩).read h.arrays.length = (h.read p.arr).map (·.mul f) := rr
        rw [rr'] at g
        simp only [result, become, e2, Store.update, List.length_set, view_pkgs_length]
        exact g
    · have E : Package.extract ⟨M, h.read p.arr⟩ (.num b x) = (.error .typeError, ⟨M, h.read p.arr⟩) := by simp [Package.extract, hb]
      rw [E, if_neg hb]; exact same _
  | tup c b x =>
    simp only [extract, arg]
    obtain ⟨u, hm, k⟩ := extractTuple_spec hs hp e3 c b x
    exact good_arr hs hp e2 _ _ u hm k
  | str v =>
    simp only [extract, arg]
    obtain ⟨u, hm, k⟩ := extractClass_spec hs hp e3 v
    exact good_arr hs hp e2 _ _ u hm k
  | strTup c b x => exact same _
  | other => exact same _

/-- **C119 (psd, one statement)**: each operation does to the packages exactly what it does to values of their own: same outcome, same new package, same receiver afterwards (also after
an error), and nothing else. -/
theorem C119_psd_step (h : PHeap) (hs : Separate h) (c : Cmd) (hc : IsOp c) :
    ∃ o s, Spec.step (view h) c = some (o, s) ∧ (step h c).1 = o ∧ view (step h c).2 = s ∧ Separate (step h c).2 := by
  have fin : ∀ {r : Out × PHeap} {s : Out × PStore}, Good r s → ∃ o t, some s = some (o, t) ∧ r.1 = o ∧ view r.2 = t ∧ Separate r.2 :=
    fun {r s} g => ⟨s.1, s.2, rfl, g.1, g.2.1, g.2.2⟩
  cases c with
  | create m a mass n => exact fin (good_create hs m a mass n)
  | clone p =>
    simp only [step, Spec.step, withPkg]
    cases hp : h.pkgs[p]? with
    | none => rw [pkg_none hp]; exact fin (good_err hs (Same.refl h) _)
    | some P =>
      obtain ⟨M, e1, e2, e3⟩ := pkg_view hs hp
      rw [e1]
      exact fin (good_res hs (same_alloc hs _) (hs.mats P (List.mem_of_getElem? hp)) (fresh_alloc hs _) e2 (read_alloc_new h _))
  | plus p a =>
    simp only [step, withPkg]
    cases hp : h.pkgs[p]? with
    | none => simp only [Spec.step, pkg_none hp]; exact fin (good_err hs (Same.refl h) _)
    | some P => exact fin (good_plus hs hp a)
  | times p b k =>
    simp only [step, Spec.step, withPkg]
    cases hp : h.pkgs[p]? with
    | none => rw [pkg_none hp]; exact fin (good_err hs (Same.refl h) _)
    | some P =>
      obtain ⟨M, e1, e2, e3⟩ := pkg_view hs hp
      rw [e1]
      simp only [times, Package.mul]
      by_cases hf : b = true
      · simp only [if_pos hf]
        by_cases hg : (F64.fin 0).gt k = true
        · simp only [if_pos hg]; exact fin (good_err hs (Same.refl h) _)
        · simp only [if_neg hg]
          exact fin (good_res hs (same_alloc hs _) (hs.mats P (List.mem_of_getElem? hp)) (fresh_alloc hs _) e2 (read_alloc_new h _))
      · simp only [if_neg hf]; exact fin (good_err hs (Same.refl h) _)
  | addTo p a =>
    simp only [step, withPkg]
    cases hp : h.pkgs[p]? with
    | none => simp only [Spec.step, pkg_none hp]; exact fin (good_err hs (Same.refl h) _)
    | some P => exact fin (good_addTo hs hp a)
  | extract p a =>
    simp only [step, withPkg]
    cases hp : h.pkgs[p]? with
    | none => simp only [Spec.step, pkg_none hp]; exact fin (good_err hs (Same.refl h) _)
    | some P => exact fin (good_extract hs hp a)
  | clear p =>
    simp only [step, Spec.step, withPkg]
    cases hp : h.pkgs[p]? with
    | none => rw [pkg_none hp]; exact fin (good_err hs (Same.refl h) _)
    | some P =>
      obtain ⟨M, e1, e2, e3⟩ := pkg_view hs hp
      rw [e1]
      simp only [Package.clear, become, e2]
      have u := Same.upd (same_alloc hs ((h.read P.arr).map (·.mul (.fin 0)))) (rebind_pkg ((same_alloc hs _).sep hs) hp (fresh_alloc hs _) ())
      rw [read_alloc_new] at u
      exact fin (good_upd u (.ok none))
  | array l => cases hc
  | setItem l i x => cases hc
  | construct m l => cases hc
  | addAssay m n l => cases hc

/-- **C119 (psd)**: the same for every program: whatever is created, cloned, added, multiplied, cleared and extracted in whatever order, each package behaves as a value of its own. -/
theorem C119_psd_history (cs : List Cmd) (hc : ∀ c ∈ cs, IsOp c) : ∀ (h : PHeap), Separate h →
    ∃ os s, Spec.run (view h) cs = some (os, s) ∧ (run h cs).1 = os ∧ view (run h cs).2 = s ∧ Separate (run h cs).2 := by
  induction cs with
  | nil => exact fun h hs => ⟨[], view h, rfl, rfl, rfl, hs⟩
  | cons c cs ih =>
    intro h hs
    obtain ⟨o, s, h1, h2, h3, h4⟩ := C119_psd_step h hs c (hc c List.mem_cons_self)
    obtain ⟨os, s', k1, k2, k3, k4⟩ := ih (fun c hh => hc c (List.mem_cons_of_mem _ hh)) (step h c).2 h4
    rw [h3] at k1
    refine ⟨o :: os, s', ?_, ?_, k3, k4⟩
    · simp only [Spec.run, h1, k1]
    · simp only [run, h2, k2]

theorem result_keeps (s : PStore) (r : Res Package) (i : Option Nat) : Keeps s (result s r).2 i := by
  cases r with
  | error e => exact keeps_refl s i
  | ok P => exact keeps_push s i _ _ _

theorem step_keeps {s s' : PStore} {c : Cmd} {o : Out} (h : Spec.step s c = some (o, s')) : Keeps s s' (receiver c) := by
  have res : ∀ (r : Res Package) (i : Option Nat), result s r = (o, s') → Keeps s s' i := by
    intro r i hr
    have e : s' = (result s r).2 := by rw [hr]
    rw [e]; exact result_keeps s r i
  have nop : ∀ {e : Out} {i : Option Nat}, (e, s) = (o, s') → Keeps s s' i := by
    intro e i he
    have : s' = s := by cases he; rfl
    rw [this]; exact keeps_refl s i
  cases c with
  | create m a mass n =>
    have h := Option.some.inj h
    split at h
    · exact nop h
    · exact res _ _ h
  | clone p =>
    have h := Option.some.inj h
    split at h
    · exact nop h
    · exact res _ _ h
  | plus p a =>
    have h := Option.some.inj h
    split at h
    · exact res _ _ h
    · exact nop h
  | times p b k =>
    have h := Option.some.inj h
    split at h
    · exact nop h
    · exact res _ _ h
  | addTo p a =>
    have h := Option.some.inj h
    split at h
    · split at h
      · cases h; exact keeps_update _ _ _ _ _
      · cases h; exact keeps_update _ _ _ _ _
    · exact nop h
  | extract p a =>
    have h := Option.some.inj h
    split at h
    · rename_i P A _ _
      have e : s' = (result (become s p (P.extract A).2) (P.extract A).1).2 := (congrArg Prod.snd h).symm
      rw [e]
      exact (keeps_update _ _ _ _ _).trans (result_keeps _ _ _)
    · exact nop h
  | clear p =>
    have h := Option.some.inj h
    split at h
    · exact nop h
    · cases h; exact keeps_update _ _ _ _ _
  | array l => cases h
  | setItem l i x => cases h
  | construct m l => cases h
  | addAssay m n l => cases h

/-- **C119 (psd, untouched)**: a program changes only the packages that it adds to, clears or extracts from: every other package keeps its masses, and no operation changes an assay. -/
theorem C119_psd_untouched (cs : List Cmd) : ∀ (h : PHeap), Separate h → (∀ c ∈ cs, IsOp c) → ∀ j < h.pkgs.length, (∀ c ∈ cs, receiver c ≠ some j) →
    contents (run h cs).2 j = contents h j ∧ ∀ m name, assayOf (run h cs).2 m name = assayOf h m name := by
  induction cs with
  | nil => exact fun h _ _ j _ _ => ⟨rfl, fun _ _ => rfl⟩
  | cons c cs ih =>
    intro h hs hc j hj hr
    obtain ⟨o, s, h1, h2, h3, h4⟩ := C119_psd_step h hs c (hc c List.mem_cons_self)
    have k := step_keeps h1
    have k2 := k.len
    rw [← h3, view_pkgs_length, view_pkgs_length] at k2
    obtain ⟨i1, i2⟩ := ih (step h c).2 h4 (fun c hh => hc c (List.mem_cons_of_mem _ hh)) j (by omega) (fun c hh => hr c (List.mem_cons_of_mem _ hh))
    have e : (run h (c :: cs)).2 = (run (step h c).2 cs).2 := rfl
    rw [e, i1]
    refine ⟨?_, fun m name => ?_⟩
    · rw [contents_view, contents_view, h3, k.pkgs j (by rw [view_pkgs_length]; exact hj) (hr c List.mem_cons_self)]
    · rw [i2, assay_view, assay_view, h3, k.mats]

/-- **C119 (psd, own arrays)**: `MaterialPackage(material, a)` with an array that nothing else holds gives an independent package; `add_assay` with an array that no package holds leaves
packages alone; an array that neither a package nor an assay holds can be changed freely. -/
theorem C119_psd_own (h : PHeap) (hs : Separate h) (a : Nat) (ha : a < h.arrays.length) (h1 : a ∉ pkgArrays h) :
    (a ∉ assayArrays h → ∀ m < h.mats.length, Separate (step h (.construct m a)).2 ∧ contents (step h (.construct m a)).2 h.pkgs.length = some (m, (), h.read a) ∧
      ∀ j < h.pkgs.length, contents (step h (.construct m a)).2 j = contents h j) ∧
    (∀ m name, Separate (step h (.addAssay m name a)).2 ∧ ∀ j, contents (step h (.addAssay m name a)).2 j = contents h j) ∧
    (a ∉ assayArrays h → ∀ i x, Separate (step h (.setItem a i x)).2 ∧ (∀ j, contents (step h (.setItem a i x)).2 j = contents h j) ∧
      ∀ m name, assayOf (step h (.setItem a i x)).2 m name = assayOf h m name) :=
  ⟨fun h2 _ hm => construct_own hs ⟨ha, h1, h2⟩ hm (), fun m name => addAssay_own hs ha h1 m name, fun h2 i x => setItem_own hs ⟨ha, h1, h2⟩ i x⟩

/-- A material of two size classes with one assay, and an array of the caller's. -/
def ex : PHeap := ⟨[⟨[1, 1/2], [("A".toList, 0)]⟩], [], [[.fin 60, .fin 40], [.fin 10, .fin 20]]⟩

/-- **C119 is violated** for arrays that the caller passes: the constructor and `add_assay` keep the caller's array and copy nothing.  Two packages made of one array: extracting from the
first takes the mass out of the second too — but adding a package to the first does not change the second, since that binds a new array.  A package's array passed as an assay:
extracting from the package changes the assay.  An array changed after it was passed: the package changes. -/
theorem C119_psd_shared_violated :
    contents (run ex [.construct 0 1, .construct 0 1]).2 1 = some (0, (), [.fin 10, .fin 20]) ∧
    contents (run ex [.construct 0 1, .construct 0 1, .extract 0 (.str (some 1))]).2 1 = some (0, (), [.fin 0, .fin 20]) ∧
    contents (run ex [.construct 0 1, .construct 0 1, .addTo 0 (.tup 1 true (.fin 5))]).2 1 = some (0, (), [.fin 15, .fin 20]) ∧
    contents (run ex [.construct 0 1, .construct 0 1, .addTo 0 (.pkg 1)]).2 1 = some (0, (), [.fin 10, .fin 20]) ∧
    assayOf (run ex [.construct 0 1, .addAssay 0 "B".toList 1]).2 0 "B".toList = some [.fin 10, .fin 20] ∧
    assayOf (run ex [.construct 0 1, .addAssay 0 "B".toList 1, .extract 0 (.tup (1/2) true (.fin 5))]).2 0 "B".toList = some [.fin 10, .fin 15] ∧
    contents (run ex [.construct 0 1, .setItem 1 0 (.fin 99)]).2 0 = some (0, (), [.fin 99, .fin 20]) := by decide +kernel

theorem ex_sep : Separate ex := start_sep _ _ (by decide)

/-- A concrete case: create, clone, extract from the original, add to the extract, clear the original. -/
example : (run ex [.create 0 (some "A".toList) (.fin 200) true, .clone 0, .extract 0 (.num true (.fin 100)), .addTo 2 (.tup 1 true (.fin 7)), .clear 0]).2.pkgs.length = 3 ∧
    contents (run ex [.create 0 (some "A".toList) (.fin 200) true, .clone 0, .extract 0 (.num true (.fin 100)), .addTo 2 (.tup 1 true (.fin 7)), .clear 0]).2 1 =
      some (0, (), [.fin 120, .fin 80]) ∧
    contents (run ex [.create 0 (some "A".toList) (.fin 200) true, .clone 0, .extract 0 (.num true (.fin 100)), .addTo 2 (.tup 1 true (.fin 7)), .clear 0]).2 2 =
      some (0, (), [.fin 67, .fin 40]) := by decide +kernel

example : contents (run (run ex [.create 0 (some "A".toList) (.fin 200) true, .clone 0]).2 [.extract 0 (.str (some 1)), .addTo 0 (.pkg 1), .plus 0 (.pkg 1), .clear 0]).2 1 =
    contents (run ex [.create 0 (some "A".toList) (.fin 200) true, .clone 0]).2 1 := by
  obtain ⟨_, _, _, _, _, hs⟩ := C119_psd_history [.create 0 (some "A".toList) (.fin 200) true, .clone 0] (by simp [IsOp]) ex ex_sep
  exact (C119_psd_untouched _ _ hs (by simp [IsOp]) 1 (by decide +kernel) (by simp [receiver])).1

end Auxi.PsdHeap.Props
