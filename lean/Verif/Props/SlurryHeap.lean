import Verif.Proofs.PsdHeap

/-! # C119: slurry packages do not share their contents -/
namespace Auxi.SlurryHeap.Props
open Auxi Auxi.ArrHeap Auxi.ArrHeap.Spec Auxi.ArrHeap.Proofs Auxi.SlurryHeap Auxi.SlurryHeap.Spec Auxi.Slurry
open Auxi.Psd (F64 Arg)
open Auxi.PsdHeap (HArg classes withPkg finishArr extractTuple extractClass plusLoop plusTuple)
open Auxi.PsdHeap.Proofs (plusLoop_spec plusTuple_spec extractTuple_spec extractClass_spec addTuple_mat addLoop_mat)

theorem pkg_view {h : SHeap} (hs : Separate h) {i : Nat} {p : SPkg} (hp : h.pkgs[i]? = some p) :
    ∃ M : Material, pkg (view h) i = some ⟨M, p.extra.1, p.extra.2, h.read p.arr⟩ ∧ M.psd.ident = p.mat ∧ M.psd.classes = classes Info.classes h p.mat := by
  have hm := hs.mats p (List.mem_of_getElem? hp)
  refine ⟨⟨⟨p.mat, h.mats[p.mat].info.classes, h.mats[p.mat].assays.map fun e => (e.1, h.read e.2)⟩, h.mats[p.mat].info.densities, h.mats[p.mat].info.waters⟩, ?_, rfl, ?_⟩
  · simp only [pkg, view_pkg hp, mat, view_mat hm]
  · simp [classes, hm]

theorem pkg_none {h : SHeap} {i : Nat} (hp : h.pkgs[i]? = none) : pkg (view h) i = none := by simp only [pkg, view_pkg_none hp]

theorem good_res {h h' : SHeap} (hs : Separate h) (hh : Same h h') {m a : Nat} (hm : m < h.mats.length) (f : Fresh h' a) {M : Material} (hi : M.psd.ident = m)
    {l : List F64} (hl : h'.read a = l) (d w : F64) : Good (finish (.ok ⟨m, (d, w), a⟩, h')) (result (view h) (.ok ⟨M, d, w, l⟩)) := by
  have := good_new hs hh hm (d, w) f
  rw [hl] at this
  simp only [result, hi, view_pkgs_length]
  exact this

theorem good_create {h : SHeap} (hs : Separate h) (m : Nat) (a : Option Str) (mass : F64) (n : Bool) :
    Good (createPackage h m a mass n) (match mat (view h) m with
      | none => (.error .nameError, view h)
      | some M => result (view h) (M.createPackage a mass n)) := by
  unfold createPackage
  cases hm : h.mats[m]? with
  | none =>
    have : mat (view h) m = none := by simp [mat, view, hm]
    rw [this]; exact good_err hs (Same.refl h) _
  | some o =>
    have hlt := lt_of_get hm
    have e : mat (view h) m = some ⟨⟨m, o.info.classes, o.assays.map fun e => (e.1, h.read e.2)⟩, o.info.densities, o.info.waters⟩ := by simp [mat, view, hm]
    rw [e]
    dsimp only
    cases a with
    | none => exact good_res hs (same_alloc hs _) hlt (fresh_alloc hs _) rfl (read_alloc_new h _) _ _
    | some name =>
      simp only [Material.createPackage, Psd.Material.assayTotal, Psd.Material.assay, lookup_map]
      have key : ∀ t : F64, Good (match dictGet o.info.waters name with
          | .error e => (.error e, h)
          | .ok w => match dictGet o.info.densities name with
            | .error e => (.error e, h)
            | .ok d => match o.assays.lookup name with
              | none => (.error .keyError, h)
              | some a => match h.alloc ((h.read a).map fun x => ((mass.sub (mass.mul (.fin w))).mul x).div t) with
                | (h, b) => finish (.ok ⟨m, (.fin d, mass.mul (.fin w)), b⟩, h)) (result (view h) (match dictGet o.info.waters name with
          | .error e => .error e
          | .ok w => match dictGet o.info.densities name with
            | .error e => .error e
            | .ok d => match (match (o.assays.lookup name).map h.read with
              | some l => .ok l
              | none => .error .keyError : Res (List F64)) with
              | .error e => .error e
              | .ok l => .ok ⟨⟨⟨m, o.info.classes, o.assays.map fun e => (e.1, h.read e.2)⟩, o.info.densities, o.info.waters⟩, .fin d, mass.mul (.fin w),
                  l.map fun x => ((mass.sub (mass.mul (.fin w))).mul x).div t⟩)) := by
        intro t
        cases dictGet o.info.waters name with
        | error e => exact good_err hs (Same.refl h) _
        | ok w =>
          cases dictGet o.info.densities name with
          | error e => exact good_err hs (Same.refl h) _
          | ok d =>
            cases o.assays.lookup name with
            | none => exact good_err hs (Same.refl h) _
            | some a => exact good_res hs (same_alloc hs _) hlt (fresh_alloc hs _) rfl (read_alloc_new h _) _ _
      cases n with
      | false => exact key _
      | true =>
        cases ha : o.assays.lookup name with
        | none => exact good_err hs (Same.refl h) _
        | some a =>
          rw [ha] at key
          exact key _

theorem good_plus {h : SHeap} (hs : Separate h) {i : Nat} {p : SPkg} (hp : h.pkgs[i]? = some p) (a : HArg) :
    Good (plus h p a) (match pkg (view h) i, arg (view h) a with
      | some P, some A => result (view h) (P.add A)
      | _, _ => (.error .nameError, view h)) := by
  obtain ⟨M, e1, e2, e3⟩ := pkg_view hs hp
  have hlt := hs.mats p (List.mem_of_getElem? hp)
  rw [e1]
  cases a with
  | pkg q =>
    simp only [plus, arg]
    cases hq : h.pkgs[q]? with
    | none => rw [pkg_none hq]; exact good_err hs (Same.refl h) _
    | some Q =>
      obtain ⟨N, f1, f2, f3⟩ := pkg_view hs hq
      rw [f1]
      simp only [Option.map_some, Package.add, Package.solids, Package.solidMass, Psd.Package.add, e2, f2]
      generalize ((Psd.sum (h.read p.arr)).add (Psd.sum (h.read Q.arr))).div (((Psd.sum (h.read p.arr)).div p.extra.1).add ((Psd.sum (h.read Q.arr)).div Q.extra.1)) = d
      generalize p.extra.2.add Q.extra.2 = w
      by_cases hpq : p.mat = Q.mat
      · simp only [if_pos hpq]
        cases Psd.vadd (h.read p.arr) (h.read Q.arr) with
        | error e => exact good_err hs (Same.refl h) _
        | ok l => exact good_res hs (same_alloc hs _) hlt (fresh_alloc hs _) e2 (read_alloc_new h _) _ _
      · simp only [if_neg hpq, cloned_eq]
        have sa := same_alloc hs (h.read p.arr)
        have := plusLoop_spec (cls := Info.classes) (p := p) (q := Q) (classes Info.classes h Q.mat) (h.alloc (h.read p.arr)).1 ⟨p.mat, (d, w), h.arrays.length⟩ (M := M.psd)
          (N := N.psd) (sa.sep hs) rfl (fresh_alloc hs _) (mem_pkgArrays hq) e3 f3
        rw [read_alloc_new, sa.read _ (Or.inl (mem_pkgArrays hq))] at this
        rw [f3]
        obtain ⟨s, k⟩ := this
        change Good (finish (plusLoop Info.classes p Q (classes Info.classes h Q.mat) ⟨p.mat, (d, w), h.arrays.length⟩ (h.alloc (h.read p.arr)).1)) _
        generalize plusLoop Info.classes p Q (classes Info.classes h Q.mat) ⟨p.mat, (d, w), h.arrays.length⟩ (h.alloc (h.read p.arr)).1 = v at s k ⊢
        obtain ⟨w1, w2⟩ := v
        have hm := addLoop_mat ⟨N.psd, h.read Q.arr⟩ (classes Info.classes h Q.mat) ⟨M.psd, h.read p.arr⟩
        generalize Psd.Package.addLoop ⟨N.psd, h.read Q.arr⟩ (classes Info.classes h Q.mat) ⟨M.psd, h.read p.arr⟩ = v at k hm ⊢
        obtain ⟨v1, v2⟩ := v
        cases v1 with
        | error e => dsimp only at k; subst k; exact good_err hs (sa.trans s) _
        | ok u =>
          obtain ⟨a', k1, k3, k4⟩ := k
          dsimp only at k1 k3 k4
          subst k1
          exact good_res hs (sa.trans s) hlt k3 e2 k4 _ _
  | strTup c b x =>
    simp only [plus, arg, Package.add, cloned_eq]
    by_cases hb : b = true
    · simp only [if_pos hb]
      exact good_res hs (same_alloc hs _) hlt (fresh_alloc hs _) e2 (read_alloc_new h _) _ _
    · simp only [if_neg hb]; exact good_err hs (Same.refl h) _
  | tup c b x =>
    simp only [plus, arg, Package.add, Package.solids, Psd.Package.add, Package.withSolids]
    obtain ⟨s, k⟩ := plusTuple_spec hs e3 c b x
    generalize plusTuple Info.classes h p c b x = w at s k ⊢
    obtain ⟨w1, w2⟩ := w
    cases ha : Psd.Package.addTuple ⟨M.psd, h.read p.arr⟩ c b x with
    | error e => rw [ha] at k; dsimp only at k; subst k; exact good_err hs s _
    | ok P =>
      rw [ha] at k
      obtain ⟨a', k1, k3, k4⟩ := k
      dsimp only at k1 k3 k4
      subst k1
      exact good_res hs s hlt k3 e2 k4 _ _
  | num b x => exact good_err hs (Same.refl h) _
  | str v => exact good_err hs (Same.refl h) _
  | other => exact good_err hs (Same.refl h) _

theorem good_arr {h : SHeap} (hs : Separate h) {i : Nat} {p : SPkg} (hp : h.pkgs[i]? = some p) {M : Material} (e2 : M.psd.ident = p.mat) (w : Res Nat × SHeap)
    (R : Res Psd.Package × Psd.Package) (x : F64 × F64) (u : Upd h w.2 i p.mat p.extra R.2.masses) (k : match R.1 with
      | .error e => w.1 = .error e
      | .ok r => r.mat = M.psd ∧ ∃ a, w.1 = .ok a ∧ Fresh w.2 a ∧ w.2.read a = r.masses) :
    Good (finishArr p.mat x w) (match (match (generalizing := false) R with
      | (.error e, s) => (.error e, Package.withSolids ⟨M, p.extra.1, p.extra.2, h.read p.arr⟩ s)
      | (.ok r, s) => (.ok ⟨M, x.1, x.2, r.masses⟩, Package.withSolids ⟨M, p.extra.1, p.extra.2, h.read p.arr⟩ s) : Res Package × Package) with
      | (r, P') => result (become (view h) i P') r) := by
  obtain ⟨w1, w2⟩ := w
  obtain ⟨r, P⟩ := R
  dsimp only at u k
  cases r with
  | error e =>
    dsimp only at k
    subst k
    simp only [finishArr, result, become, Package.withSolids, e2]
    exact good_upd u _
  | ok r =>
    obtain ⟨km, a, k1, k2, k3⟩ := k
    subst k1
    simp only [finishArr, result, become, Package.withSolids, e2]
    have := good_upd_new u (hs.mats p (List.mem_of_getElem? hp)) x k2
    rw [k3] at this
    simp only [Store.update, List.length_set, view_pkgs_length]
    exact this

theorem good_extract {h : SHeap} (hs : Separate h) {i : Nat} {p : SPkg} (hp : h.pkgs[i]? = some p) (a : HArg) :
    Good (extract h i p a) (match pkg (view h) i, arg (view h) a with
      | some P, some A => match P.extract A with
        | (r, P') => result (become (view h) i P') r
      | _, _ => (.error .nameError, view h)) := by
  obtain ⟨M, e1, e2, e3⟩ := pkg_view hs hp
  have same : ∀ e : PyErr, Good (.error e, h) (.error e, become (view h) i ⟨M, p.extra.1, p.extra.2, h.read p.arr⟩) := fun e => by
    simp only [become, e2]; exact good_upd (Upd.refl hs hp) _
  have hlt := hs.mats p (List.mem_of_getElem? hp)
  rw [e1]
  cases a with
  | pkg q =>
    simp only [extract, arg]
    cases hq : h.pkgs[q]? with
    | none => rw [pkg_none hq]; exact good_err hs (Same.refl h) _
    | some Q => obtain ⟨N, f1, f2, f3⟩ := pkg_view hs hq; rw [f1]; exact same _
  | num b x =>
    simp only [extract, arg]
    by_cases hb : b = true
    · by_cases hg : x.gt (mass h p) = true
      · have hg' : x.gt (Package.mass ⟨M, p.extra.1, p.extra.2, h.read p.arr⟩) = true := hg
        have E : Package.extract ⟨M, p.extra.1, p.extra.2, h.read p.arr⟩ (.num b x) = (.error .exception, ⟨M, p.extra.1, p.extra.2, h.read p.arr⟩) := by
          simp [Package.extract, hb, hg']
        rw [E, if_pos hb, if_pos hg]; exact same _
      · have hg' : ¬ x.gt (Package.mass ⟨M, p.extra.1, p.extra.2, h.read p.arr⟩) = true := hg
        have E : Package.extract ⟨M, p.extra.1, p.extra.2, h.read p.arr⟩ (.num b x) =
            (.ok ⟨M, p.extra.1, p.extra.2.mul (x.div (mass h p)), (h.read p.arr).map (·.mul (x.div (mass h p)))⟩,
              ⟨M, p.extra.1, p.extra.2.mul ((F64.fin 1).sub (x.div (mass h p))), (h.read p.arr).map (·.mul ((F64.fin 1).sub (x.div (mass h p))))⟩) := by
          simp [Package.extract, hb, hg']; exact ⟨⟨rfl, fun _ _ => rfl⟩, rfl, fun _ _ => rfl⟩
        rw [E, if_pos hb, if_neg hg]
        generalize x.div (mass h p) = f
        have sa := same_alloc hs ((h.read p.arr).map (·.mul f))
        have fa := fresh_alloc hs ((h.read p.arr).map (·.mul f))
        have ra := read_alloc_new h ((h.read p.arr).map (·.mul f))
        have rp : (h.alloc ((h.read p.arr).map (·.mul f))).1.read p.arr = h.read p.arr := sa.read _ (Or.inl (mem_pkgArrays hp))
        have hp' : (h.alloc ((h.read p.arr).map (·.mul f))).1.pkgs[i]? = some p := hp
        have eA : h.alloc ((h.read p.arr).map (·.mul f)) = ((h.alloc ((h.read p.arr).map (·.mul f))).1, h.arrays.length) := rfl
        rw [eA]
        dsimp only
        generalize (h.alloc ((h.read p.arr).map (·.mul f))).1 = A at sa fa ra rp hp' ⊢
        rw [rp]
        generalize (F64.fin 1).sub f = g'
        generalize (h.read p.arr).map (·.mul g') = l
        have sb := same_alloc (sa.sep hs) l
        have fb := fresh_alloc (sa.sep hs) l
        have rb := read_alloc_new A l
        have fr := sb.fresh fa
        have rr : (A.alloc l).1.read h.arrays.length = (h.read p.arr).map (·.mul f) := by rw [read_alloc_old fa.lt, ra]
        have hp2 : (A.alloc l).1.pkgs[i]? = some p := hp'
        have eB : A.alloc l = ((A.alloc l).1, A.arrays.length) := rfl
        rw [eB]
        dsimp only
        have ne : A.arrays.length ≠ h.arrays.length := by have := fa.lt; omega
        have u := Same.upd (sa.trans sb) (rebind_pkg ((sa.trans sb).sep hs) hp2 fb (p.extra.1, p.extra.2.mul g'))
        rw [rb] at u
        have g := good_upd_new u hlt (p.extra.1, p.extra.2.mul f) (fresh_rebind fr ne)
        have rr' : ((A.alloc l).1.rebind i ⟨p.mat, (p.extra.1, p.extra.2.mul g'), A.arrays.length⟩).read h.arrays.length = (h.read p.arr).map (·.mul f) := rr
        rw [rr'] at g
        simp only [result, become, e2, Store.update, List.length_set, view_pkgs_length]
        exact g
    · have E : Package.extract ⟨M, p.extra.1, p.extra.2, h.read p.arr⟩ (.num b x) = (.error .typeError, ⟨M, p.extra.1, p.extra.2, h.read p.arr⟩) := by simp [Package.extract, hb]
      rw [E, if_neg hb]; exact same _
  | strTup c b x =>
    simp only [extract, arg]
    by_cases hb : b = true
    · by_cases hg : x.gt p.extra.2 = true
      · have E : Package.extract ⟨M, p.extra.1, p.extra.2, h.read p.arr⟩ (.strTup c b x) = (.error .exception, ⟨M, p.extra.1, p.extra.2, h.read p.arr⟩) := by
          simp [Package.extract, hb, hg]
        rw [E, if_pos hb, if_pos hg]; exact same _
      · have E : Package.extract ⟨M, p.extra.1, p.extra.2, h.read p.arr⟩ (.strTup c b x) =
            (.ok ⟨M, p.extra.1, x, (h.read p.arr).map (·.mul (.fin 0))⟩, ⟨M, p.extra.1, p.extra.2.sub x, h.read p.arr⟩) := by simp [Package.extract, hb, hg]
        rw [E, if_pos hb, if_neg hg]
        have u := retag_pkg hs hp (p.extra.1, p.extra.2.sub x)
        have rp : (h.rebind i ⟨p.mat, (p.extra.1, p.extra.2.sub x), p.arr⟩).read p.arr = h.read p.arr := rfl
        generalize h.rebind i ⟨p.mat, (p.extra.1, p.extra.2.sub x), p.arr⟩ = B at u rp ⊢
        dsimp only
        rw [rp]
        generalize (h.read p.arr).map (·.mul (.fin 0)) = l
        have g := good_upd_new (u.same (same_alloc u.sep l)) hlt (p.extra.1, x) (fresh_alloc u.sep l)
        rw [read_alloc_new] at g
        simp only [result, become, e2, Store.update, List.length_set, view_pkgs_length]
        exact g
    · have E : Package.extract ⟨M, p.extra.1, p.extra.2, h.read p.arr⟩ (.strTup c b x) = (.error .typeError, ⟨M, p.extra.1, p.extra.2, h.read p.arr⟩) := by
        simp [Package.extract, hb]
      rw [E, if_neg hb]; exact same _
  | tup c b x =>
    simp only [extract, arg, Package.extract, Package.solids]
    obtain ⟨u, hm, k⟩ := extractTuple_spec hs hp e3 c b x
    exact good_arr hs hp e2 _ _ (p.extra.1, .fin 0) u k
  | str v =>
    simp only [extract, arg, Package.extract, Package.solids]
    obtain ⟨u, hm, k⟩ := extractClass_spec hs hp e3 v
    exact good_arr hs hp e2 _ _ (p.extra.1, p.extra.2.mul (.fin 0)) u k
  | other => exact same _

/-- **C119 (slurry, one statement)**: each operation does to the packages exactly what it does to values of their own: same outcome, same new package, same receiver afterwards (also
after an error), and nothing else. -/
theorem C119_slurry_step (h : SHeap) (hs : Separate h) (c : Cmd) (hc : IsOp c) :
    ∃ o s, Spec.step (view h) c = some (o, s) ∧ (step h c).1 = o ∧ view (step h c).2 = s ∧ Separate (step h c).2 := by
  have fin : ∀ {r : Out × SHeap} {s : Out × SStore}, Good r s → ∃ o t, some s = some (o, t) ∧ r.1 = o ∧ view r.2 = t ∧ Separate r.2 :=
    fun {r s} g => ⟨s.1, s.2, rfl, g.1, g.2.1, g.2.2⟩
  cases c with
  | create m a mass n => exact fin (good_create hs m a mass n)
  | clone p =>
    simp only [step, Spec.step, withPkg]
    cases hp : h.pkgs[p]? with
    | none => rw [pkg_none hp]; exact fin (good_err hs (Same.refl h) _)
    | some P =>
      obtain ⟨M, e1, e2, e3⟩ := pkg_view hs hp
      rw [e1]
      exact fin (good_res hs (same_alloc hs _) (hs.mats P (List.mem_of_getElem? hp)) (fresh_alloc hs _) e2 (read_alloc_new h _) P.extra.1 P.extra.2)
  | plus p a =>
    simp only [step, withPkg]
    cases hp : h.pkgs[p]? with
    | none => simp only [Spec.step, pkg_none hp]; exact fin (good_err hs (Same.refl h) _)
    | some P => exact fin (good_plus hs hp a)
  | times p b k =>
    simp only [step, Spec.step, withPkg]
    cases hp : h.pkgs[p]? with
    | none => rw [pkg_none hp]; exact fin (good_err hs (Same.refl h) _)
    | some P =>
      obtain ⟨M, e1, e2, e3⟩ := pkg_view hs hp
      rw [e1]
      simp only [times, Package.mul]
      by_cases hf : b = true
      · simp only [if_pos hf]
        by_cases hg : (F64.fin 0).gt k = true
        · simp only [if_pos hg]; exact fin (good_err hs (Same.refl h) _)
        · simp only [if_neg hg]
          exact fin (good_res hs (same_alloc hs _) (hs.mats P (List.mem_of_getElem? hp)) (fresh_alloc hs _) e2 (read_alloc_new h _) _ _)
      · simp only [if_neg hf]; exact fin (good_err hs (Same.refl h) _)
  | extract p a =>
    simp only [step, withPkg]
    cases hp : h.pkgs[p]? with
    | none => simp only [Spec.step, pkg_none hp]; exact fin (good_err hs (Same.refl h) _)
    | some P => exact fin (good_extract hs hp a)
  | clear p =>
    simp only [step, Spec.step, withPkg]
    cases hp : h.pkgs[p]? with
    | none => rw [pkg_none hp]; exact fin (good_err hs (Same.refl h) _)
    | some P =>
      obtain ⟨M, e1, e2, e3⟩ := pkg_view hs hp
      rw [e1]
      simp only [Package.clear, become, e2]
      have u := Same.upd (same_alloc hs ((h.read P.arr).map (·.mul (.fin 0)))) (rebind_pkg ((same_alloc hs _).sep hs) hp (fresh_alloc hs _) (.fin 1, .fin 0))
      rw [read_alloc_new] at u
      exact fin (good_upd u (.ok none))
  | array l => cases hc
  | setItem l i x => cases hc
  | construct m d w l => cases hc
  | addAssay m n d w l => cases hc

/-- **C119 (slurry)**: the same for every program: whatever is created, cloned, added, multiplied, cleared and extracted in whatever order, each package behaves as a value of its own. -/
theorem C119_slurry_history (cs : List Cmd) (hc : ∀ c ∈ cs, IsOp c) : ∀ (h : SHeap), Separate h →
    ∃ os s, Spec.run (view h) cs = some (os, s) ∧ (run h cs).1 = os ∧ view (run h cs).2 = s ∧ Separate (run h cs).2 := by
  induction cs with
  | nil => exact fun h hs => ⟨[], view h, rfl, rfl, rfl, hs⟩
  | cons c cs ih =>
    intro h hs
    obtain ⟨o, s, h1, h2, h3, h4⟩ := C119_slurry_step h hs c (hc c List.mem_cons_self)
    obtain ⟨os, s', k1, k2, k3, k4⟩ := ih (fun c hh => hc c (List.mem_cons_of_mem _ hh)) (step h c).2 h4
    rw [h3] at k1
    refine ⟨o :: os, s', ?_, ?_, k3, k4⟩
    · simp only [Spec.run, h1, k1]
    · simp only [run, h2, k2]

theorem result_keeps (s : SStore) (r : Res Package) (i : Option Nat) : Keeps s (result s r).2 i := by
  cases r with
  | error e => exact keeps_refl s i
  | ok P => exact keeps_push s i _ _ _

theorem step_keeps {s s' : SStore} {c : Cmd} {o : Out} (h : Spec.step s c = some (o, s')) : Keeps s s' (receiver c) := by
  have res : ∀ (r : Res Package) (i : Option Nat), result s r = (o, s') → Keeps s s' i := by
    intro r i hr
    have e : s' = (result s r).2 := by rw [hr]
    rw [e]; exact result_keeps s r i
  have nop : ∀ {e : Out} {i : Option Nat}, (e, s) = (o, s') → Keeps s s' i := by
    intro e i he
    have : s' = s := by cases he; rfl
    rw [this]; exact keeps_refl s i
  cases c with
  | create m a mass n =>
    have h := Option.some.inj h
    split at h
    · exact nop h
    · exact res _ _ h
  | clone p =>
    have h := Option.some.inj h
    split at h
    · exact nop h
    · exact res _ _ h
  | plus p a =>
    have h := Option.some.inj h
    split at h
    · exact res _ _ h
    · exact nop h
  | times p b k =>
    have h := Option.some.inj h
    split at h
    · exact nop h
    · exact res _ _ h
  | extract p a =>
    have h := Option.some.inj h
    split at h
    · rename_i P A _ _
      have e : s' = (result (become s p (P.extract A).2) (P.extract A).1).2 := (congrArg Prod.snd h).symm
      rw [e]
      exact (keeps_update _ _ _ _ _).trans (result_keeps _ _ _)
    · exact nop h
  | clear p =>
    have h := Option.some.inj h
    split at h
    · exact nop h
    · cases h; exact keeps_update _ _ _ _ _
  | array l => cases h
  | setItem l i x => cases h
  | construct m d w l => cases h
  | addAssay m n d w l => cases h

/-- **C119 (slurry, untouched)**: a program changes only the packages that it clears or extracts from: every other package keeps its density, its water and its masses, and no operation
changes an assay. -/
theorem C119_slurry_untouched (cs : List Cmd) : ∀ (h : SHeap), Separate h → (∀ c ∈ cs, IsOp c) → ∀ j < h.pkgs.length, (∀ c ∈ cs, receiver c ≠ some j) →
    contents (run h cs).2 j = contents h j ∧ ∀ m name, assayOf (run h cs).2 m name = assayOf h m name := by
  induction cs with
  | nil => exact fun h _ _ j _ _ => ⟨rfl, fun _ _ => rfl⟩
  | cons c cs ih =>
    intro h hs hc j hj hr
    obtain ⟨o, s, h1, h2, h3, h4⟩ := C119_slurry_step h hs c (hc c List.mem_cons_self)
    have k := step_keeps h1
    have k2 := k.len
    rw [← h3, view_pkgs_length, view_pkgs_length] at k2
    obtain ⟨i1, i2⟩ := ih (step h c).2 h4 (fun c hh => hc c (List.mem_cons_of_mem _ hh)) j (by omega) (fun c hh => hr c (List.mem_cons_of_mem _ hh))
    have e : (run h (c :: cs)).2 = (run (step h c).2 cs).2 := rfl
    rw [e, i1]
    refine ⟨?_, fun m name => ?_⟩
    · rw [contents_view, contents_view, h3, k.pkgs j (by rw [view_pkgs_length]; exact hj) (hr c List.mem_cons_self)]
    · rw [i2, assay_view, assay_view, h3, k.mats]

/-- **C119 (slurry, own arrays)**: the constructor with an array that nothing else holds gives an independent package; `add_assay` with an array that no package holds leaves packages
alone; an array that neither a package nor an assay holds can be changed freely. -/
theorem C119_slurry_own (h : SHeap) (hs : Separate h) (a : Nat) (ha : a < h.arrays.length) (h1 : a ∉ pkgArrays h) :
    (a ∉ assayArrays h → ∀ m < h.mats.length, ∀ d w, Separate (step h (.construct m d w a)).2 ∧
      contents (step h (.construct m d w a)).2 h.pkgs.length = some (m, (d, w), h.read a) ∧ ∀ j < h.pkgs.length, contents (step h (.construct m d w a)).2 j = contents h j) ∧
    (∀ m name d w, Separate (step h (.addAssay m name d w a)).2 ∧ ∀ j, contents (step h (.addAssay m name d w a)).2 j = contents h j) ∧
    (a ∉ assayArrays h → ∀ i x, Separate (step h (.setItem a i x)).2 ∧ (∀ j, contents (step h (.setItem a i x)).2 j = contents h j) ∧
      ∀ m name, assayOf (step h (.setItem a i x)).2 m name = assayOf h m name) := by
  refine ⟨fun h2 m hm d w => construct_own hs ⟨ha, h1, h2⟩ hm (d, w), fun m name d w => ?_, fun h2 i x => setItem_own hs ⟨ha, h1, h2⟩ i x⟩
  simp only [step, addAssay]
  cases hm : h.mats[m]? with
  | none => exact ⟨hs, fun _ => rfl⟩
  | some o =>
    cases d with
    | none => exact ⟨hs, fun _ => rfl⟩
    | some d =>
      dsimp only
      have s1 := setMat_own hs hm (o' := { o with info := { o.info with densities := dictSet name d o.info.densities } }) (fun e he => Or.inl he)
      cases w with
      | none => exact ⟨s1, fun _ => rfl⟩
      | some w =>
        dsimp only
        have hm2 : (h.mats.set m { o with info := { o.info with densities := dictSet name d o.info.densities } })[m]? =
            some { o with info := { o.info with densities := dictSet name d o.info.densities } } := by simp [lt_of_get hm]
        have s2 := setMat_own s1 hm2 (o' := ⟨⟨o.info.classes, dictSet name d o.info.densities, dictSet name w o.info.waters⟩, o.assays⟩) (fun e he => Or.inl he)
        obtain ⟨g1, g2⟩ := addAssay_own (size := fun i : Info => i.classes.length) s2 ha h1 m name
        exact ⟨g1, fun j => (g2 j).trans rfl⟩

/-- A material of two size classes with one assay, and an array of the caller's. -/
def ex : SHeap := ⟨[⟨⟨[1, 1/2], [("A".toList, 3)], [("A".toList, 1/2)]⟩, [("A".toList, 0)]⟩], [], [[.fin 60, .fin 40], [.fin 10, .fin 20]]⟩

/-- **C119 is violated** for arrays that the caller passes: the constructor and `add_assay` keep the caller's array.  Two packages made of one array: extracting a size class from the
first takes the mass out of the second too; extracting a mass from the first does not (that binds a new array).  A package's array passed as an assay: extracting from the package
changes the assay.  An array changed after it was passed: the package changes. -/
theorem C119_slurry_shared_violated :
    contents (run ex [.construct 0 (.fin 3) (.fin 5) 1, .construct 0 (.fin 4) (.fin 6) 1]).2 1 = some (0, (.fin 4, .fin 6), [.fin 10, .fin 20]) ∧
    contents (run ex [.construct 0 (.fin 3) (.fin 5) 1, .construct 0 (.fin 4) (.fin 6) 1, .extract 0 (.str (some 1))]).2 1 = some (0, (.fin 4, .fin 6), [.fin 0, .fin 20]) ∧
    contents (run ex [.construct 0 (.fin 3) (.fin 5) 1, .construct 0 (.fin 4) (.fin 6) 1, .extract 0 (.num true (.fin 7))]).2 1 = some (0, (.fin 4, .fin 6), [.fin 10, .fin 20]) ∧
    assayOf (run ex [.construct 0 (.fin 3) (.fin 5) 1, .addAssay 0 "B".toList (some 1) (some 0) 1]).2 0 "B".toList = some [.fin 10, .fin 20] ∧
    assayOf (run ex [.construct 0 (.fin 3) (.fin 5) 1, .addAssay 0 "B".toList (some 1) (some 0) 1, .extract 0 (.tup (1/2) true (.fin 5))]).2 0 "B".toList =
      some [.fin 10, .fin 15] ∧
    contents (run ex [.construct 0 (.fin 3) (.fin 5) 1, .setItem 1 0 (.fin 99)]).2 0 = some (0, (.fin 3, .fin 5), [.fin 99, .fin 20]) := by
  refine ⟨?_, ?_, ?_, ?_, ?_, ?_⟩ <;> decide +kernel

theorem ex_sep : Separate ex := start_sep _ _ (by decide)

/-- A concrete case: create, clone, extract from the original, take water from the clone, clear the original. -/
example : (run ex [.create 0 (some "A".toList) (.fin 200) true, .clone 0, .extract 0 (.num true (.fin 100)), .extract 1 (.strTup "H2O".toList true (.fin 30)), .clear 0]).2.pkgs.length = 4 ∧
    contents (run ex [.create 0 (some "A".toList) (.fin 200) true, .clone 0, .extract 0 (.num true (.fin 100)), .extract 1 (.strTup "H2O".toList true (.fin 30)), .clear 0]).2 1 =
      some (0, (.fin 3, .fin 70), [.fin 60, .fin 40]) ∧
    contents (run ex [.create 0 (some "A".toList) (.fin 200) true, .clone 0, .extract 0 (.num true (.fin 100)), .extract 1 (.strTup "H2O".toList true (.fin 30)), .clear 0]).2 2 =
      some (0, (.fin 3, .fin 50), [.fin 30, .fin 20]) := by decide +kernel

example : contents (run (run ex [.create 0 (some "A".toList) (.fin 200) true, .clone 0]).2 [.extract 0 (.str (some 1)), .plus 0 (.pkg 1), .clear 0]).2 1 =
    contents (run ex [.create 0 (some "A".toList) (.fin 200) true, .clone 0]).2 1 := by
  obtain ⟨_, _, _, _, _, hs⟩ := C119_slurry_history [.create 0 (some "A".toList) (.fin 200) true, .clone 0] (by simp [IsOp]) ex ex_sep
  exact (C119_slurry_untouched _ _ hs (by simp [IsOp]) 1 (by decide +kernel) (by simp [receiver])).1

end Auxi.SlurryHeap.Props
