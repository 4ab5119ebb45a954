import Verif.Proofs.ArrHeap
import Verif.Spec.PsdHeap

/-! # Proofs for C119: the parts that `psd.py` and `slurry.py` share -/
namespace Auxi.PsdHeap.Proofs
open Auxi Auxi.ArrHeap Auxi.ArrHeap.Spec Auxi.ArrHeap.Proofs Auxi.PsdHeap Auxi.Psd

variable {I X : Type} {cls : I → List ℚ}

theorem index_eq {h : Heap I X F64} {m : Nat} {M : Material} (hM : M.classes = classes cls h m) (c : ℚ) : index cls h m c = M.index c := by
  simp only [index, Material.index, hM]; rfl

theorem classMass_eq {h : Heap I X F64} {q : PkgObj X} {M : Material} (hM : M.classes = classes cls h q.mat) (c : ℚ) :
    classMass cls h q c = Package.classMass ⟨M, h.read q.arr⟩ c := by
  simp only [classMass, Package.classMass, index_eq hM]
  cases M.index c with
  | error e => rfl
  | ok i => cases (h.read q.arr)[i]? <;> rfl

theorem addTuple_mat {P P' : Package} {c : ℚ} {b : Bool} {x : F64} (h : P.addTuple c b x = .ok P') : P'.mat = P.mat := by
  unfold Package.addTuple at h
  split at h
  · split at h
    · cases h
    · split at h
      · cases h
      · cases h; rfl
  · cases h

theorem addLoop_mat (Q : Package) (cs : List ℚ) : ∀ P : Package, (Package.addLoop Q cs P).2.mat = P.mat := by
  induction cs with
  | nil => intro P; rfl
  | cons c cs ih =>
    intro P
    unfold Package.addLoop
    split
    · rfl
    · split
      · rfl
      · split
        · rfl
        · rename_i P' hP
          rw [ih P', addTuple_mat hP]

theorem plusTuple_spec {h : Heap I X F64} (hs : Separate h) {r : PkgObj X} {M : Material} (hM : M.classes = classes cls h r.mat) (c : ℚ) (b : Bool) (x : F64) :
    Same h (plusTuple cls h r c b x).2 ∧ (match Package.addTuple ⟨M, h.read r.arr⟩ c b x with
      | .error e => (plusTuple cls h r c b x).1 = .error e
      | .ok P => ∃ a, (plusTuple cls h r c b x).1 = .ok ⟨r.mat, r.extra, a⟩ ∧ Fresh (plusTuple cls h r c b x).2 a ∧ (plusTuple cls h r c b x).2.read a = P.masses) := by
  unfold plusTuple Package.addTuple
  rw [index_eq hM]
  split
  · cases hi : M.index c with
    | error e => exact ⟨Same.refl h, rfl⟩
    | ok i =>
      dsimp only [cloned_eq]
      rw [read_alloc_new]
      cases hy : (h.read r.arr)[i]? with
      | none => exact ⟨same_alloc hs _, rfl⟩
      | some y =>
        dsimp only
        have f := fresh_alloc hs (h.read r.arr)
        refine ⟨(same_alloc hs _).trans (same_write_fresh f _), h.arrays.length, rfl, (same_write_fresh f _).fresh f, ?_⟩
        exact read_write_same f.lt
  · exact ⟨Same.refl h, rfl⟩

theorem plusLoop_spec {p q : PkgObj X} (cs : List ℚ) : ∀ (h : Heap I X F64) (r : PkgObj X) {M N : Material}, Separate h → r.mat = p.mat → Fresh h r.arr → q.arr ∈ pkgArrays h →
    M.classes = classes cls h p.mat → N.classes = classes cls h q.mat →
    Same h (plusLoop cls p q cs r h).2 ∧ (match Package.addLoop ⟨N, h.read q.arr⟩ cs ⟨M, h.read r.arr⟩ with
      | (.error e, _) => (plusLoop cls p q cs r h).1 = .error e
      | (.ok _, P) => ∃ a, (plusLoop cls p q cs r h).1 = .ok ⟨p.mat, r.extra, a⟩ ∧ Fresh (plusLoop cls p q cs r h).2 a ∧ (plusLoop cls p q cs r h).2.read a = P.masses) := by
  induction cs with
  | nil => intro h r M N hs hm f _ _ _; exact ⟨Same.refl h, r.arr, by rw [← hm]; rfl, f, rfl⟩
  | cons c cs ih =>
    intro h r M N hs hm f hq hM hN
    simp only [plusLoop, Package.addLoop]
    rw [hM]
    split
    · exact ⟨Same.refl h, rfl⟩
    · rw [classMass_eq hN]
      cases hx : Package.classMass ⟨N, h.read q.arr⟩ c with
      | error e => exact ⟨Same.refl h, rfl⟩
      | ok x =>
        dsimp only
        obtain ⟨s, k⟩ := plusTuple_spec hs (hM.trans (by rw [hm])) c true x
        cases ha : Package.addTuple ⟨M, h.read r.arr⟩ c true x with
        | error e =>
          rw [ha] at k
          generalize plusTuple cls h r c true x = w at s k ⊢
          obtain ⟨w1, w2⟩ := w
          dsimp only at s k
          subst k
          exact ⟨s, rfl⟩
        | ok P =>
          rw [ha] at k
          generalize plusTuple cls h r c true x = w at s k ⊢
          obtain ⟨w1, w2⟩ := w
          dsimp only at s k
          obtain ⟨a', k1, k3, k4⟩ := k
          subst k1
          dsimp only
          have hP := addTuple_mat ha
          obtain ⟨Pm, Pl⟩ := P
          dsimp only at hP k4
          subst hP
          have hc : ∀ m, classes cls w2 m = classes cls h m := fun m => by simp only [classes, s.mats]
          have := ih w2 ⟨r.mat, r.extra, a'⟩ (M := Pm) (N := N) (s.sep hs) hm k3 (by rw [s.arrays.1]; exact hq) (by rw [hc]; exact hM) (by rw [hc]; exact hN)
          dsimp only at this
          rw [k4, s.read _ (Or.inl hq)] at this
          exact ⟨s.trans this.1, this.2⟩

theorem extractTuple_spec {h : Heap I X F64} (hs : Separate h) {i : Nat} {p : PkgObj X} (hp : h.pkgs[i]? = some p) {M : Material} (hM : M.classes = classes cls h p.mat)
    (c : ℚ) (b : Bool) (x : F64) :
    Upd h (extractTuple cls h p c b x).2 i p.mat p.extra (Package.extract ⟨M, h.read p.arr⟩ (.tup c b x)).2.masses ∧
    (Package.extract ⟨M, h.read p.arr⟩ (.tup c b x)).2.mat = M ∧
    match (Package.extract ⟨M, h.read p.arr⟩ (.tup c b x)).1 with
      | .error e => (extractTuple cls h p c b x).1 = .error e
      | .ok R => R.mat = M ∧ ∃ a, (extractTuple cls h p c b x).1 = .ok a ∧ Fresh (extractTuple cls h p c b x).2 a ∧ (extractTuple cls h p c b x).2.read a = R.masses := by
  unfold extractTuple Package.extract
  dsimp only
  rw [index_eq hM]
  split
  · cases hi : M.index c with
    | error e => exact ⟨Upd.refl hs hp, rfl, rfl⟩
    | ok j =>
      dsimp only
      cases hy : (h.read p.arr)[j]? with
      | none => exact ⟨Upd.refl hs hp, rfl, rfl⟩
      | some y =>
        dsimp only
        by_cases hg : x.gt y = true
        · simp only [if_pos hg]; exact ⟨Upd.refl hs hp, trivial, trivial⟩
        · simp only [if_neg hg]
          have u := write_pkg hs hp ((h.read p.arr).set j (y.sub x))
          have rw1 : (h.write p.arr ((h.read p.arr).set j (y.sub x))).read p.arr = (h.read p.arr).set j (y.sub x) := read_write_same (hs.arrays _ (mem_pkgArrays hp))
          rw [rw1]
          generalize h.write p.arr ((h.read p.arr).set j (y.sub x)) = B at u ⊢
          generalize ((h.read p.arr).set j (y.sub x)).map (·.mul (.fin 0)) = l at u ⊢
          have f := fresh_alloc u.sep l
          have r1 := read_alloc_new B l
          show Upd h ((B.alloc l).1.write B.arrays.length (((B.alloc l).1.read B.arrays.length).set j x)) i p.mat p.extra _ ∧ _
          rw [r1]
          refine ⟨(u.same (same_alloc u.sep l)).same (same_write_fresh f _), trivial, trivial, B.arrays.length, rfl, ?_, ?_⟩
          · show Fresh ((B.alloc l).1.write B.arrays.length (((B.alloc l).1.read B.arrays.length).set j x)) B.arrays.length
            exact fresh_write f _
          · show ((B.alloc l).1.write B.arrays.length (((B.alloc l).1.read B.arrays.length).set j x)).read B.arrays.length = _
            rw [read_write_same f.lt, r1]
  · exact ⟨Upd.refl hs hp, rfl, rfl⟩

theorem extractClass_spec {h : Heap I X F64} (hs : Separate h) {i : Nat} {p : PkgObj X} (hp : h.pkgs[i]? = some p) {M : Material} (hM : M.classes = classes cls h p.mat)
    (v : Option ℚ) :
    Upd h (extractClass cls h p v).2 i p.mat p.extra (Package.extract ⟨M, h.read p.arr⟩ (.str v)).2.masses ∧
    (Package.extract ⟨M, h.read p.arr⟩ (.str v)).2.mat = M ∧
    match (Package.extract ⟨M, h.read p.arr⟩ (.str v)).1 with
      | .error e => (extractClass cls h p v).1 = .error e
      | .ok R => R.mat = M ∧ ∃ a, (extractClass cls h p v).1 = .ok a ∧ Fresh (extractClass cls h p v).2 a ∧ (extractClass cls h p v).2.read a = R.masses := by
  unfold extractClass Package.extract
  cases v with
  | none => exact ⟨Upd.refl hs hp, rfl, rfl⟩
  | some c =>
    dsimp only
    rw [index_eq hM]
    cases hi : M.index c with
    | error e => exact ⟨Upd.refl hs hp, rfl, rfl⟩
    | ok j =>
      dsimp only
      generalize hl : (h.read p.arr).map (·.mul (.fin 0)) = l
      have sa := same_alloc hs l
      have f := fresh_alloc hs l
      have ra : (h.alloc l).1.read p.arr = h.read p.arr := sa.read _ (Or.inl (mem_pkgArrays hp))
      have rn := read_alloc_new h l
      have hp' : (h.alloc l).1.pkgs[i]? = some p := hp
      have e : (h.alloc l) = ((h.alloc l).1, h.arrays.length) := rfl
      rw [e]
      dsimp only
      generalize (h.alloc l).1 = B at sa f ra rn hp' ⊢
      rw [ra, rn]
      cases hy : (h.read p.arr)[j]? with
      | none => exact ⟨(Same.upd sa (Upd.refl (sa.sep hs) hp')).trans (by rw [← ra]; exact Upd.refl (sa.sep hs) hp'), rfl, rfl⟩
      | some y =>
        dsimp only
        have s2 := same_write_fresh f (l.set j y)
        have f2 := fresh_write (b := h.arrays.length) f (l.set j y)
        have r2 : (B.write h.arrays.length (l.set j y)).read p.arr = h.read p.arr := by rw [s2.read _ (Or.inl (mem_pkgArrays hp')), ra]
        have r3 : (B.write h.arrays.length (l.set j y)).read h.arrays.length = l.set j y := read_write_same f.lt
        have hp2 : (B.write h.arrays.length (l.set j y)).pkgs[i]? = some p := hp'
        generalize B.write h.arrays.length (l.set j y) = C at s2 f2 r2 r3 hp2 ⊢
        rw [r2]
        refine ⟨Same.upd (sa.trans s2) (write_pkg ((sa.trans s2).sep hs) hp2 _), rfl, rfl, h.arrays.length, rfl, fresh_write f2 _, ?_⟩
        rw [read_write_ne (fresh_ne hp2 f2), r3]

end Auxi.PsdHeap.Proofs
