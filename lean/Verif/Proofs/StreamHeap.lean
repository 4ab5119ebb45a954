import Verif.Spec.StreamHeap
import Verif.Proofs.ArrHeap

/-! # Proofs for C121: what the streams of `thermo.py` do to objects that share nothing -/
namespace Auxi.StreamHeap.Proofs
open Auxi Auxi.ArrHeap Auxi.ArrHeap.Spec Auxi.ArrHeap.Proofs Auxi.StreamHeap
open Auxi.Thermo (V Db Material Stream vadd vsub vmul vdiv vgt vsum)
open Auxi.ThermoHeap (Info)
open Classical

/-! ## New objects -/

/-- The second heap has the same objects and the arrays of the first, unchanged. -/
structure Ext (h h' : SHeap) : Prop where
  mats : h'.mats = h.mats
  pkgs : h'.pkgs = h.pkgs
  len : h.arrays.length ≤ h'.arrays.length
  read : ∀ a < h.arrays.length, h'.read a = h.read a

theorem Ext.refl (h : SHeap) : Ext h h := ⟨rfl, rfl, le_refl _, fun _ _ => rfl⟩

theorem Ext.trans {h h' h'' : SHeap} (s : Ext h h') (t : Ext h' h'') : Ext h h'' :=
  ⟨t.mats.trans s.mats, t.pkgs.trans s.pkgs, le_trans s.len t.len, fun a ha => by rw [t.read a (lt_of_lt_of_le ha s.len), s.read a ha]⟩

theorem Ext.same {h h' : SHeap} (s : Ext h h') (hs : Separate h) : Same h h' :=
  ⟨s.mats, s.pkgs, s.len, fun a ha => s.read a (ha.elim (hs.arrays a) (hs.assays a))⟩

theorem Ext.sep {h h' : SHeap} (s : Ext h h') (hs : Separate h) : Separate h' := (s.same hs).sep hs

theorem ext_alloc (h : SHeap) (l : List V) : Ext h (h.alloc l).1 := ⟨rfl, rfl, by simp [Heap.alloc], fun _ ha => read_alloc_old ha⟩

theorem ext_write {h0 h : SHeap} (s : Ext h0 h) {a : Nat} (ha : h0.arrays.length ≤ a) (l : List V) : Ext h0 (h.write a l) :=
  ⟨s.mats, s.pkgs, by simpa [Heap.write] using s.len, fun b hb => by rw [read_write_ne (by omega), s.read b hb]⟩

theorem matAt_view (h : SHeap) (m : Nat) : matAt h m = (match (view h).mats[m]? with
    | none => ⟨m, [], [], [], [], []⟩
    | some e => ⟨m, e.1.compounds, e.2, e.1.elements, e.1.customNames, e.1.custom⟩) := by
  simp only [matAt, view, List.getElem?_map]
  cases h.mats[m]? <;> rfl

theorem matAt_ident (h : SHeap) (m : Nat) : (matAt h m).ident = m := by
  unfold matAt; cases h.mats[m]? <;> rfl

theorem matAt_congr {h h' : SHeap} (hv : (view h').mats = (view h).mats) (m : Nat) : matAt h' m = matAt h m := by rw [matAt_view, matAt_view, hv]

theorem Ext.matAt {h h' : SHeap} (s : Ext h h') (hs : Separate h) (m : Nat) : StreamHeap.matAt h' m = StreamHeap.matAt h m :=
  matAt_congr (by rw [(s.same hs).view]) m

theorem matAt_write {h : SHeap} {a : Nat} (ha : a ∉ assayArrays h) (l : List V) (m : Nat) : StreamHeap.matAt (h.write a l) m = StreamHeap.matAt h m := by
  apply matAt_congr
  exact view_eq rfl fun b hb => read_write_ne (by rintro rfl; exact ha hb)

theorem fresh_ext {h h' : SHeap} (s : Ext h h') (hs : Separate h) {a : Nat} (h1 : h.arrays.length ≤ a) (h2 : a < h'.arrays.length) : Fresh h' a := by
  refine ⟨h2, fun hh => ?_, fun hh => ?_⟩
  · rw [(s.same hs).arrays.1] at hh; have := hs.arrays a hh; omega
  · rw [(s.same hs).arrays.2] at hh; have := hs.assays a hh; omega

/-- The object `o` means `r`, and its array is none of those of `h`. -/
structure Obj (h h' : SHeap) (o : SPkg) (r : Stream) : Prop where
  pack : pack h' o = r
  lo : h.arrays.length ≤ o.arr
  hi : o.arr < h'.arrays.length
  mat : o.mat < h'.mats.length

/-- The heap has kept everything, and the result is a new object that means `R` or the error of `R`. -/
def New (h : SHeap) (w : Res SPkg × SHeap) (R : Res Stream) : Prop := Ext h w.2 ∧ match R with
  | .error e => w.1 = .error e
  | .ok r => ∃ o, w.1 = .ok o ∧ Obj h w.2 o r

theorem new_err {h h' : SHeap} (s : Ext h h') (e : PyErr) : New h (.error e, h') (.error e) := ⟨s, rfl⟩

theorem New.base {h h1 : SHeap} (s : Ext h h1) {w : Res SPkg × SHeap} {R : Res Stream} (n : New h1 w R) : New h w R := by
  refine ⟨s.trans n.1, ?_⟩
  cases R with
  | error e => exact n.2
  | ok r =>
    obtain ⟨o, k1, k2⟩ := n.2
    exact ⟨o, k1, k2.pack, le_trans s.len k2.lo, k2.hi, k2.mat⟩

variable {db : Db}

theorem setHHV_fields (q : Stream) (x : Option V) : (q.setHHV db x).2.mat = q.mat ∧ (q.setHHV db x).2.mfrs = q.mfrs := by
  unfold Stream.setHHV; dsimp only; split
  · split <;> exact ⟨rfl, rfl⟩
  · exact ⟨rfl, rfl⟩

theorem newStream_fields {m : Material} {l : List V} {P T : V} {c : Bool} {hv : Option V} {q : Stream} (h : Thermo.newStream db m l P T c hv = .ok q) : q.mat = m ∧ q.mfrs = l := by
  unfold Thermo.newStream at h
  have f := setHHV_fields (db := db) ⟨m, l, P, T, some 0, c, none, none⟩ hv
  generalize Stream.setHHV db ⟨m, l, P, T, some 0, c, none, none⟩ hv = w at f h
  obtain ⟨w1, w2⟩ := w
  cases w1 with
  | error e => cases h
  | ok u =>
    dsimp only at h f
    split at h
    · split at h
      · cases h
      · cases h; exact f
    · cases h; exact f

theorem pack_tx {h : SHeap} {m a : Nat} {q : Stream} (h1 : q.mat = matAt h m) (h2 : q.mfrs = h.read a) : pack h ⟨m, tx q, a⟩ = q := by
  obtain ⟨qm, ql, q1, q2, q3, q4, q5, q6⟩ := q
  dsimp only at h1 h2
  subst h1 h2
  rfl

theorem newPkg_spec {h : SHeap} (hs : Separate h) {m : Nat} (hm : m < h.mats.length) (l : List V) (P T : V) (c : Bool) (hv : Option V) :
    New h (newPkg db (h.alloc l).1 m h.arrays.length P T c hv, (h.alloc l).1) (Thermo.newStream db (matAt h m) l P T c hv) := by
  refine ⟨ext_alloc h l, ?_⟩
  have e : newPkg db (h.alloc l).1 m h.arrays.length P T c hv = (match Thermo.newStream db (matAt h m) l P T c hv with
    | .error e => .error e
    | .ok q => .ok ⟨m, tx q, h.arrays.length⟩) := by
    unfold newPkg
    rw [(ext_alloc h l).matAt hs, read_alloc_new]
    rfl
  rw [e]
  cases hq : Thermo.newStream db (matAt h m) l P T c hv with
  | error e => rfl
  | ok q =>
    obtain ⟨f1, f2⟩ := newStream_fields hq
    refine ⟨_, rfl, pack_tx ?_ ?_, le_refl _, by simp [Heap.alloc], hm⟩
    · rw [f1, (ext_alloc h l).matAt hs]
    · rw [f2, read_alloc_new]

theorem createEmpty_spec {h : SHeap} (hs : Separate h) {m : Nat} (hm : m < h.mats.length) (P T : V) (x : V) (n : Bool) :
    New h (createEmpty db h m P T) ((matAt h m).createStream db none x P T n) := newPkg_spec hs hm _ P T false none

theorem createStream_spec {h : SHeap} (hs : Separate h) {m : Nat} (hm : m < h.mats.length) (a : Option Str) (x P T : V) (n : Bool) :
    New h (createStream db h m a x P T n) ((matAt h m).createStream db a x P T n) := by
  cases a with
  | none => exact createEmpty_spec hs hm P T x n
  | some name =>
    unfold createStream Material.createStream
    dsimp only
    cases (matAt h m).scaled name x n with
    | error e => exact new_err (Ext.refl h) e
    | ok l =>
      dsimp only
      rw [(ext_alloc h l).matAt hs]
      cases (matAt h m).isCoal name with
      | error e => exact new_err (ext_alloc h l) e
      | ok b =>
        dsimp only
        cases (matAt h m).hhv name with
        | error e => exact new_err (ext_alloc h l) e
        | ok v => exact newPkg_spec hs hm l P T b v

theorem setHfr_fields (x : V) (q : Stream) : (q.setHfr db x).2.mat = q.mat ∧ (q.setHfr db x).2.mfrs = q.mfrs := by
  unfold Stream.setHfr; dsimp only; split <;> exact ⟨rfl, rfl⟩

theorem setT_fields (x : V) (q : Stream) : (q.setT db x).2.mat = q.mat ∧ (q.setT db x).2.mfrs = q.mfrs := by
  unfold Stream.setT; dsimp only; split <;> exact ⟨rfl, rfl⟩

theorem updateHHV_fields (c : Str) (x : V) (q : Stream) : (q.updateHHV db c x).2.mat = q.mat ∧ (q.updateHHV db c x).2.mfrs = q.mfrs := by
  unfold Stream.updateHHV
  repeat' split
  all_goals first | exact ⟨rfl, rfl⟩ | exact setHHV_fields _ _

theorem onObj_spec {h h' : SHeap} {o : SPkg} {r : Stream} (k : Obj h h' o r) (s : Ext h h') {f : Stream → Res Unit × Stream} (hf : ∀ q, (f q).2.mat = q.mat ∧ (f q).2.mfrs = q.mfrs) :
    New h (onObj h' o f, h') (Thermo.finish (f r)) := by
  refine ⟨s, ?_⟩
  unfold onObj
  rw [k.pack]
  obtain ⟨f1, f2⟩ := hf r
  generalize f r = w at f1 f2 ⊢
  obtain ⟨w1, w2⟩ := w
  cases w1 with
  | error e => rfl
  | ok u =>
    refine ⟨_, rfl, pack_tx ?_ ?_, k.lo, k.hi, k.mat⟩
    · rw [f1, ← k.pack]; rfl
    · rw [f2, ← k.pack]; rfl

theorem setPObj_spec {h h' : SHeap} {o : SPkg} {r : Stream} (k : Obj h h' o r) (x : V) : Obj h h' (setPObj o x) (r.setP x) :=
  ⟨by rw [← k.pack]; rfl, k.lo, k.hi, k.mat⟩

theorem Obj.write {h h' : SHeap} (hs : Separate h) {o : SPkg} {r : Stream} (k : Obj h h' o r) (s : Ext h h') (l : List V) :
    Obj h (h'.write o.arr l) o { r with mfrs := l } := by
  have f := fresh_ext s hs k.lo k.hi
  refine ⟨?_, k.lo, by simpa [Heap.write] using k.hi, k.mat⟩
  rw [← k.pack]
  unfold StreamHeap.pack
  rw [matAt_write f.assay, read_write_same k.hi]

theorem read_pack {h : SHeap} {o : SPkg} {r : Stream} (hp : pack h o = r) : h.read o.arr = r.mfrs ∧ matAt h o.mat = r.mat ∧ o.extra = tx r := by
  subst hp; exact ⟨rfl, rfl, rfl⟩

theorem cloned_spec {h : SHeap} (hs : Separate h) {p : SPkg} (hm : p.mat < h.mats.length) : Obj h (h.cloned p).1 (h.cloned p).2 (pack h p) := by
  rw [cloned_eq]
  refine ⟨?_, le_refl _, by simp [Heap.alloc], hm⟩
  unfold pack
  dsimp only
  rw [read_alloc_new, (ext_alloc h _).matAt hs]

/-- Going on with a result. -/
theorem New.cases {h : SHeap} {w : Res SPkg × SHeap} {R : Res Stream} (n : New h w R) :
    (∃ e, R = .error e ∧ w = (.error e, w.2)) ∨ ∃ r o, R = .ok r ∧ w = (.ok o, w.2) ∧ Obj h w.2 o r := by
  obtain ⟨s, n⟩ := n
  cases R with
  | error e => exact Or.inl ⟨e, rfl, by dsimp only at n; rw [← n]⟩
  | ok r =>
    obtain ⟨o, k1, k2⟩ := n
    exact Or.inr ⟨r, o, rfl, by rw [← k1], k2⟩

theorem New.cases1 {h h' : SHeap} {v : Res SPkg} {R : Res Stream} (n : New h (v, h') R) :
    (∃ e, R = .error e ∧ v = .error e) ∨ ∃ r o, R = .ok r ∧ v = .ok o ∧ Obj h h' o r := by
  obtain ⟨s, n⟩ := n
  cases R with
  | error e => exact Or.inl ⟨e, rfl, n⟩
  | ok r =>
    obtain ⟨o, k1, k2⟩ := n
    exact Or.inr ⟨r, o, rfl, k1, k2⟩

theorem plusTuple_spec {h : SHeap} (hs : Separate h) {p : SPkg} (hm : p.mat < h.mats.length) (c : Str) (x : V) :
    New h (plusTuple db h p c x) ((pack h p).addTuple db c x) := by
  unfold plusTuple Stream.addTuple
  have e1 : (pack h p).mat = matAt h p.mat := rfl
  have e2 : (pack h p).T = p.extra.T := rfl
  rw [e1, e2]
  cases (matAt h p.mat).index c with
  | error e => exact new_err (Ext.refl h) e
  | ok i =>
    dsimp only
    cases Thermo.thermoH db c p.extra.T x with
    | error e => exact new_err (Ext.refl h) e
    | ok dH =>
      dsimp only
      have k := cloned_spec hs hm
      have s : Ext h (h.cloned p).1 := ext_alloc h _
      have e3 : (h.cloned p).2.extra = p.extra := rfl
      generalize h.cloned p = w at k s e3 ⊢
      obtain ⟨h', r⟩ := w
      dsimp only at k s e3 ⊢
      obtain ⟨r1, r2, r3⟩ := read_pack k.pack
      rw [r1]
      unfold Thermo.bumpAt
      cases hy : (pack h p).mfrs[i]? with
      | none => exact new_err s _
      | some y =>
        dsimp only
        have k2 := k.write hs s ((pack h p).mfrs.set i (vadd y x))
        have s2 := ext_write s k.lo ((pack h p).mfrs.set i (vadd y x))
        have n := onObj_spec k2 s2 (updateHHV_fields (db := db) c x)
        rw [show Stream.updateHHV db ⟨matAt h p.mat, (pack h p).mfrs.set i (vadd y x), (pack h p).P, p.extra.T, (pack h p).Hfr, (pack h p).isCoal, (pack h p).HHV, (pack h p).DH298⟩ c x =
          Stream.updateHHV db { pack h p with mfrs := (pack h p).mfrs.set i (vadd y x) } c x from rfl]
        generalize Stream.updateHHV db { pack h p with mfrs := (pack h p).mfrs.set i (vadd y x) } c x = w at n ⊢
        obtain ⟨w1, w2⟩ := w
        cases w1 with
        | error e =>
          rcases n.cases1 with ⟨e', h1, h2⟩ | ⟨r', o, h1, h2, k3⟩
          · rw [h2]; cases h1; exact new_err s2 e
          · cases h1
        | ok u =>
          rcases n.cases1 with ⟨e', h1, h2⟩ | ⟨r', o, h1, h2, k3⟩
          · cases h1
          · rw [h2]; cases h1
            refine ⟨s2, _, rfl, ?_, k3.lo, k3.hi, k3.mat⟩
            obtain ⟨t1, t2, t3⟩ := read_pack k3.pack
            change Stream.mk (matAt _ o.mat) (Heap.read _ o.arr) _ _ _ _ _ _ = _
            dsimp only
            rw [t1, t2, t3]
            rfl

theorem times_spec {h : SHeap} (hs : Separate h) {p : SPkg} (hm : p.mat < h.mats.length) (b : Bool) (k : V) :
    New h (times db h p b k) ((pack h p).mul db b k) := by
  unfold times Stream.mul
  by_cases hb : b = true
  · rw [if_pos hb, if_pos hb]
    by_cases hg : vgt (some 0) k
    · rw [if_pos hg, if_pos hg]; exact new_err (Ext.refl h) _
    · rw [if_neg hg, if_neg hg]; exact newPkg_spec hs hm _ _ _ _ _
  · rw [if_neg hb, if_neg hb]; exact new_err (Ext.refl h) _

theorem plusTuple3_spec {h : SHeap} (hs : Separate h) {p : SPkg} (hm : p.mat < h.mats.length) (c : Str) (x T : V) :
    New h (plusTuple3 db h p c x T) ((pack h p).add db (.tup3 c true x T)) := by
  unfold plusTuple3 Stream.add
  dsimp only
  rw [if_pos rfl]
  have e1 : (pack h p).mat = matAt h p.mat := rfl
  rw [e1]
  cases (matAt h p.mat).index c with
  | error e => exact new_err (Ext.refl h) e
  | ok i =>
    dsimp only
    cases Thermo.thermoH db c T x with
    | error e => exact new_err (Ext.refl h) e
    | ok dH =>
      dsimp only
      have n := times_spec (db := db) hs hm true (some 1)
      have s := n.1
      rcases n.cases with ⟨e, h1, h2⟩ | ⟨r, o, h1, h2, k⟩
      · rw [h1, h2]; exact new_err s e
      · rw [h1, h2]
        dsimp only
        generalize (times db h p true (some 1)).2 = h' at s k ⊢
        rw [(read_pack k.pack).1]
        unfold Thermo.bumpAt
        cases hy : r.mfrs[i]? with
        | none => exact new_err s _
        | some y =>
          dsimp only
          have k2 := k.write hs s (r.mfrs.set i (vadd y x))
          have s2 := ext_write s k.lo (r.mfrs.set i (vadd y x))
          have n2 := onObj_spec k2 s2 (setHfr_fields (db := db) (vadd p.extra.Hfr dH))
          have e4 : (pack h p).Hfr = p.extra.Hfr := rfl
          have e5 : (pack h p).P = p.extra.P := rfl
          rw [e4, e5]
          rcases n2.cases1 with ⟨e, h3, h4⟩ | ⟨r', o', h3, h4, k3⟩
          · rw [h3, h4]; exact new_err s2 e
          · rw [h3, h4]
            exact ⟨s2, _, rfl, setPObj_spec k3 _⟩

theorem addTuple_mat {P r : Stream} {c : Str} {x : V} (h : P.addTuple db c x = .ok r) : r.mat = P.mat := by
  unfold Stream.addTuple at h
  split at h
  · cases h
  · split at h
    · cases h
    · split at h
      · cases h
      · rename_i ms _
        have f := (updateHHV_fields (db := db) c x { P with mfrs := ms }).1
        generalize Stream.updateHHV db { P with mfrs := ms } c x = w at f h
        obtain ⟨w1, w2⟩ := w
        cases w1 with
        | error e => cases h
        | ok u => cases h; exact f

theorem plusLoop_spec {h : SHeap} (hs : Separate h) {p q : SPkg} (hq : q.arr < h.arrays.length) (cs : List Str) : ∀ (h1 : SHeap) (o : SPkg) (r : Stream), Ext h h1 → Obj h h1 o r →
    o.mat = p.mat → New h (plusLoop db p q cs o h1) (Stream.addLoop db (pack h q) cs r) := by
  induction cs with
  | nil => exact fun h1 o r s k _ => ⟨s, o, rfl, k⟩
  | cons c cs ih =>
    intro h1 o r s k hom
    have s1 := s.sep hs
    simp only [plusLoop, Stream.addLoop]
    have e1 : matAt h1 p.mat = r.mat := by rw [← hom]; exact (read_pack k.pack).2.1
    have e2 : pack h1 q = pack h q := by unfold pack; rw [s.matAt hs, s.read _ hq]
    rw [e1, e2]
    split
    · exact new_err s _
    · cases (pack h q).compoundMfr c with
      | error e => exact new_err s e
      | ok x =>
        dsimp only
        have n := plusTuple_spec (db := db) s1 k.mat c x
        rw [k.pack] at n
        have sn := n.1
        rcases n.cases with ⟨e, h3, h4⟩ | ⟨r', o', h3, h4, k3⟩
        · rw [h3, h4]; exact new_err (s.trans sn) e
        · rw [h3, h4]
          refine ih _ o' r' (s.trans sn) ⟨k3.pack, le_trans s.len k3.lo, k3.hi, k3.mat⟩ ?_
          have a1 := (read_pack k3.pack).2.1
          have a2 := (read_pack k.pack).2.1
          rw [addTuple_mat h3, ← a2] at a1
          have := congrArg Material.ident a1
          rw [matAt_ident, matAt_ident] at this
          rw [this, hom]

theorem plusPkg_spec {h : SHeap} (hs : Separate h) {p q : SPkg} (hm : p.mat < h.mats.length) (hq : q.arr < h.arrays.length) :
    New h (plusPkg db h p q) ((pack h p).add db (.pkg (pack h q))) := by
  unfold plusPkg Stream.add
  dsimp only
  have i1 : (pack h p).mat.ident = p.mat := matAt_ident h p.mat
  have i2 : (pack h q).mat.ident = q.mat := matAt_ident h q.mat
  rw [i1, i2]
  have e1 : (pack h p).mfrs = h.read p.arr := rfl
  have e2 : (pack h q).mfrs = h.read q.arr := rfl
  have e3 : (pack h p).mat = matAt h p.mat := rfl
  have e4 : (pack h p).Hfr = p.extra.Hfr := rfl
  have e5 : (pack h q).Hfr = q.extra.Hfr := rfl
  have e6 : (pack h p).P = p.extra.P := rfl
  have e7 : (pack h q).mat.compounds = (matAt h q.mat).compounds := rfl
  have e8 : (pack h p).isCoal = p.extra.isCoal := rfl
  have e9 : (pack h q).isCoal = q.extra.isCoal := rfl
  rw [e1, e2, e3, e4, e5, e6, e7, e8, e9]
  by_cases hpq : p.mat = q.mat
  · rw [if_pos hpq, if_pos hpq]
    cases Thermo.arrAdd (h.read p.arr) (h.read q.arr) with
    | error e => exact new_err (Ext.refl h) e
    | ok l =>
      dsimp only
      have n := newPkg_spec (db := db) hs hm l (some 1) (some 25) (p.extra.isCoal || q.extra.isCoal) (Thermo.sumHHV (pack h p) (pack h q))
      have s := ext_alloc h l
      have ea : (h.alloc l).2 = h.arrays.length := rfl
      rw [ea]
      rcases n.cases1 with ⟨e, h1, h2⟩ | ⟨r, o, h1, h2, k⟩
      · rw [h1, h2]; exact new_err s e
      · rw [h1, h2]
        dsimp only
        have n2 := onObj_spec k s (setHfr_fields (db := db) (vadd p.extra.Hfr q.extra.Hfr))
        rcases n2.cases1 with ⟨e, h3, h4⟩ | ⟨r', o', h3, h4, k3⟩
        · rw [h3, h4]; exact new_err s e
        · rw [h3, h4]
          exact ⟨s, _, rfl, setPObj_spec k3 _⟩
  · rw [if_neg hpq, if_neg hpq]
    have k := cloned_spec hs hm
    have s : Ext h (h.cloned p).1 := ext_alloc h _
    have em : (h.cloned p).2.mat = p.mat := rfl
    generalize h.cloned p = w at k s em ⊢
    obtain ⟨h', r⟩ := w
    dsimp only at k s em ⊢
    rw [s.matAt hs]
    have n := plusLoop_spec (db := db) hs hq (matAt h q.mat).compounds h' r _ s k em
    have sn := n.1
    rcases n.cases with ⟨e, h1, h2⟩ | ⟨r', o, h1, h2, k2⟩
    · rw [h1, h2]; exact new_err sn e
    · rw [h1, h2]
      exact onObj_spec k2 sn (setHfr_fields _)

/-! ## The receiver of an extraction -/

/-- Only the package at position `i` has changed, and it now means `P`; arrays that are not its own are as before. -/
structure Rec (h h' : SHeap) (i : Nat) (p : SPkg) (P : Stream) : Prop where
  upd : Upd h h' i p.mat (tx P) P.mfrs
  mat : P.mat = matAt h p.mat
  len : h.arrays.length ≤ h'.arrays.length
  read : ∀ a < h.arrays.length, a ≠ p.arr → h'.read a = h.read a
  obj : ∃ p', h'.pkgs = h.pkgs.set i p' ∧ p'.mat = p.mat ∧ (p'.arr = p.arr ∨ h.arrays.length ≤ p'.arr)

theorem Rec.refl {h : SHeap} (hs : Separate h) {i : Nat} {p : SPkg} (hp : h.pkgs[i]? = some p) : Rec h h i p (pack h p) := by
  refine ⟨Upd.refl hs hp, rfl, le_refl _, fun _ _ _ => rfl, p, ?_, rfl, Or.inl rfl⟩
  have hi := lt_of_get hp
  have : h.pkgs[i] = p := by rw [List.getElem?_eq_getElem hi] at hp; exact Option.some.inj hp
  rw [← this, List.set_getElem_self]

/-- The receiver after a step. -/
theorem Rec.get {h h' : SHeap} {i : Nat} {p : SPkg} {P : Stream} (r : Rec h h' i p P) (hp : h.pkgs[i]? = some p) :
    ∃ p', h'.pkgs[i]? = some p' ∧ h'.pkgs = h.pkgs.set i p' ∧ pack h' p' = P ∧ p'.mat = p.mat ∧ (p'.arr = p.arr ∨ h.arrays.length ≤ p'.arr) := by
  obtain ⟨p', k1, k2, k3⟩ := r.obj
  have hi := lt_of_get hp
  have hg : h'.pkgs[i]? = some p' := by rw [k1]; simp [hi]
  refine ⟨p', hg, k1, ?_, k2, k3⟩
  have v := view_pkg hg
  rw [r.upd.view] at v
  simp only [Store.update, view] at v
  rw [List.getElem?_set_self (by simpa using hi)] at v
  have v := Option.some.inj v
  simp only [Prod.mk.injEq] at v
  obtain ⟨_, v2, v3⟩ := v
  have em : matAt h' p'.mat = P.mat := by
    rw [k2, r.mat]
    apply matAt_congr
    rw [r.upd.view]; rfl
  obtain ⟨Pm, Pl, P1, P2, P3, P4, P5, P6⟩ := P
  dsimp only at em v3
  unfold pack
  rw [em, ← v2, ← v3]
  rfl

theorem Rec.matAt {h h' : SHeap} {i : Nat} {p : SPkg} {P : Stream} (r : Rec h h' i p P) (m : Nat) : StreamHeap.matAt h' m = StreamHeap.matAt h m := by
  apply matAt_congr
  rw [r.upd.view]; rfl

theorem Rec.trans {h h' h'' : SHeap} {i : Nat} {p p' : SPkg} {P Q : Stream} (r : Rec h h' i p P) (hp : h.pkgs[i]? = some p) (hp' : h'.pkgs[i]? = some p') (t : Rec h' h'' i p' Q) :
    Rec h h'' i p Q := by
  obtain ⟨p1, g1, g2, g3, g4, g5⟩ := r.get hp
  rw [hp'] at g1
  cases g1
  refine ⟨?_, ?_, le_trans r.len t.len, fun a ha hne => ?_, ?_⟩
  · have := r.upd.trans t.upd
    rw [g4] at this
    exact this
  · rw [t.mat, g4, r.matAt]
  · rw [t.read a (lt_of_lt_of_le ha r.len) (by rcases g5 with g | g <;> omega), r.read a ha hne]
  · obtain ⟨p2, k1, k2, k3⟩ := t.obj
    refine ⟨p2, by rw [k1, g2, List.set_set], k2.trans g4, ?_⟩
    have := r.len
    rcases k3 with k | k
    · rcases g5 with g | g
      · exact Or.inl (k.trans g)
      · exact Or.inr (by omega)
    · exact Or.inr (by omega)

theorem Ext.recv {h h' h'' : SHeap} (hs : Separate h) {i : Nat} {p : SPkg} {P : Stream} (s : Ext h h') (r : Rec h' h'' i p P) : Rec h h'' i p P := by
  refine ⟨Same.upd (s.same hs) r.upd, by rw [r.mat, s.matAt hs], le_trans s.len r.len, fun a ha hne => ?_, ?_⟩
  · rw [r.read a (lt_of_lt_of_le ha s.len) hne, s.read a ha]
  · obtain ⟨p', k1, k2, k3⟩ := r.obj
    exact ⟨p', by rw [k1, s.pkgs], k2, k3.imp id fun k => le_trans s.len k⟩

theorem Rec.ext {h h' h'' : SHeap} {i : Nat} {p : SPkg} {P : Stream} (r : Rec h h' i p P) (s : Ext h' h'') : Rec h h'' i p P := by
  refine ⟨r.upd.same (s.same r.upd.sep), r.mat, le_trans r.len s.len, fun a ha hne => ?_, ?_⟩
  · rw [s.read a (lt_of_lt_of_le ha r.len), r.read a ha hne]
  · obtain ⟨p', k1, k2, k3⟩ := r.obj
    exact ⟨p', by rw [s.pkgs, k1], k2, k3⟩

theorem Rec.fresh {h h' : SHeap} {i : Nat} {p : SPkg} {P : Stream} (r : Rec h h' i p P) (hp : h.pkgs[i]? = some p) {a : Nat} (f : Fresh h a) :
    Fresh h' a ∧ h'.read a = h.read a := by
  have hne := fresh_ne hp f
  obtain ⟨p', g1, g2, g3, g4, g5⟩ := r.get hp
  refine ⟨⟨lt_of_lt_of_le f.lt r.len, fun hh => ?_, fun hh => ?_⟩, r.read a f.lt (fun e => hne e.symm)⟩
  · simp only [pkgArrays, g2, List.map_set] at hh
    rcases List.mem_or_eq_of_mem_set hh with hh | hh
    · exact f.pkg hh
    · have := f.lt
      rcases g5 with g | g
      · exact hne (by omega)
      · omega
  · simp only [assayArrays, r.upd.mats] at hh; exact f.assay hh

/-- An object outside keeps its meaning while the receiver changes. -/
theorem Rec.pack {h h' : SHeap} {i : Nat} {p : SPkg} {P : Stream} (r : Rec h h' i p P) (hp : h.pkgs[i]? = some p) {o : SPkg} (f : Fresh h o.arr) :
    StreamHeap.pack h' o = StreamHeap.pack h o := by
  unfold StreamHeap.pack
  rw [r.matAt, (r.fresh hp f).2]

theorem rec_write {h : SHeap} (hs : Separate h) {i : Nat} {p : SPkg} (hp : h.pkgs[i]? = some p) (l : List V) :
    Rec h (h.write p.arr l) i p { pack h p with mfrs := l } := by
  refine ⟨write_pkg hs hp l, rfl, by simp [Heap.write], fun a _ hne => read_write_ne (fun e => hne e.symm), ?_⟩
  exact (Rec.refl hs hp).obj

theorem rec_retag {h : SHeap} (hs : Separate h) {i : Nat} {p : SPkg} (hp : h.pkgs[i]? = some p) {P : Stream} (h1 : P.mat = matAt h p.mat) (h2 : P.mfrs = h.read p.arr) :
    Rec h (h.rebind i { p with extra := tx P }) i p P := by
  have u := retag_pkg hs hp (tx P)
  rw [← h2] at u
  exact ⟨u, h1, le_refl _, fun _ _ _ => rfl, _, rfl, rfl, Or.inl rfl⟩

theorem rec_rebind {h : SHeap} (hs : Separate h) {i : Nat} {p : SPkg} (hp : h.pkgs[i]? = some p) (l : List V) (x : SX) :
    Rec h ((h.alloc l).1.rebind i ⟨p.mat, x, h.arrays.length⟩) i p ⟨matAt h p.mat, l, x.P, x.T, x.Hfr, x.isCoal, x.HHV, x.DH298⟩ := by
  have s := ext_alloc h l
  have u := Same.upd (s.same hs) (rebind_pkg (s.sep hs) hp (fresh_alloc hs l) x)
  rw [read_alloc_new] at u
  exact ⟨u, rfl, s.len, fun a ha _ => s.read a ha, _, rfl, rfl, Or.inr (le_refl _)⟩

/-- The result of an extraction: the receiver means `R.2`, the new object `R.1`. -/
def Extr (h : SHeap) (i : Nat) (p : SPkg) (w : Res SPkg × SHeap) (R : Res Stream × Stream) : Prop := Rec h w.2 i p R.2 ∧ match R.1 with
  | .error e => w.1 = .error e
  | .ok r => ∃ o, w.1 = .ok o ∧ pack w.2 o = r ∧ Fresh w.2 o.arr ∧ o.mat < h.mats.length

theorem onStream_spec {h : SHeap} (hs : Separate h) {i : Nat} {p : SPkg} (hp : h.pkgs[i]? = some p) {f : Stream → Res Unit × Stream}
    (hf : ∀ q, (f q).2.mat = q.mat ∧ (f q).2.mfrs = q.mfrs) : (onStream h i p f).1 = (f (pack h p)).1 ∧ Rec h (onStream h i p f).2 i p (f (pack h p)).2 := by
  obtain ⟨f1, f2⟩ := hf (pack h p)
  exact ⟨rfl, rec_retag hs hp f1 f2⟩

/-- The end of an extraction, from a heap `h1` in which the receiver means `P`. -/
theorem settle_spec {h h1 : SHeap} {i : Nat} {p p1 : SPkg} {P : Stream} (r : Rec h h1 i p P) (hp : h.pkgs[i]? = some p) (hp1 : h1.pkgs[i]? = some p1) {o : SPkg}
    (f : Fresh h1 o.arr) (hm : o.mat < h.mats.length) : Extr h i p (settle db h1 i p1 o) (Thermo.settleS db P (pack h1 o)) := by
  obtain ⟨p2, g1, g2, g3, g4, g5⟩ := r.get hp
  rw [hp1] at g1
  cases g1
  obtain ⟨t1, t2⟩ := onStream_spec r.upd.sep hp1 (setT_fields (db := db) p1.extra.T)
  unfold settle Thermo.settleS
  have e : P.T = p1.extra.T := by rw [← g3]; rfl
  rw [e, ← g3]
  have t3 := t2.fresh hp1 f
  have t4 := t2.pack hp1 f
  generalize onStream h1 i p1 (fun s => s.setT db p1.extra.T) = w at t1 t2 t3 t4 ⊢
  generalize (pack h1 p1).setT db p1.extra.T = v at t1 t2 ⊢
  obtain ⟨w1, w2⟩ := w
  obtain ⟨v1, v2⟩ := v
  dsimp only at t1 t2 t3 t4
  subst t1
  cases w1 with
  | error e => exact ⟨r.trans hp hp1 t2, rfl⟩
  | ok u => exact ⟨r.trans hp hp1 t2, o, rfl, t4, t3.1, hm⟩

theorem extractMfr_spec {h : SHeap} (hs : Separate h) {i : Nat} {p : SPkg} (hp : h.pkgs[i]? = some p) (x : V) :
    Extr h i p (extractMfr db h i p x) ((pack h p).extractMfr db x) := by
  have hm := hs.mats p (List.mem_of_getElem? hp)
  unfold extractMfr Stream.extractMfr
  have e1 : (pack h p).mfr = vsum (h.read p.arr) := rfl
  rw [e1]
  by_cases hg : vgt x (vsum (h.read p.arr))
  · rw [if_pos hg, if_pos hg]; exact ⟨Rec.refl hs hp, rfl⟩
  · rw [if_neg hg, if_neg hg]
    dsimp only
    have e2 : (pack h p).mfrs = h.read p.arr := rfl
    have e3 : (pack h p).mat = matAt h p.mat := rfl
    have e4 : (pack h p).P = p.extra.P := rfl
    have e5 : (pack h p).T = p.extra.T := rfl
    rw [e2, e3, e4, e5]
    generalize vdiv x (vsum (h.read p.arr)) = f
    generalize (h.read p.arr).map (fun y => vmul y f) = l
    have n := newPkg_spec (db := db) hs hm l p.extra.P p.extra.T false none
    have s := ext_alloc h l
    have ea : (h.alloc l).2 = h.arrays.length := rfl
    rw [ea]
    rcases n.cases1 with ⟨e, h1, h2⟩ | ⟨r, o, h1, h2, k⟩
    · rw [h1, h2]; exact ⟨(Rec.refl hs hp).ext s, rfl⟩
    · rw [h1, h2]
      dsimp only
      rw [s.read _ (hs.arrays _ (mem_pkgArrays hp))]
      generalize (h.read p.arr).map (fun y => vmul y (vsub (some 1) f)) = l2
      have hp' : (h.alloc l).1.pkgs[i]? = some p := hp
      generalize (h.alloc l).1 = h' at s k hp' ⊢
      have s' := s.sep hs
      have fo := fresh_ext s hs k.lo k.hi
      have r2 := rec_rebind s' hp' l2 p.extra
      have ea2 : (h'.alloc l2).2 = h'.arrays.length := rfl
      rw [ea2]
      have g := (r2.fresh hp' fo).1
      have g2 := r2.pack hp' fo
      have r3 := Ext.recv hs s r2
      have r4 : Rec h ((h'.alloc l2).1.rebind i ⟨p.mat, p.extra, h'.arrays.length⟩) i p { pack h p with mfrs := l2 } := by
        have : ({ pack h p with mfrs := l2 } : Stream) = ⟨matAt h' p.mat, l2, p.extra.P, p.extra.T, p.extra.Hfr, p.extra.isCoal, p.extra.HHV, p.extra.DH298⟩ := by
          rw [s.matAt hs]; rfl
        rw [this]; exact r3
      have := settle_spec (db := db) r4 hp (p1 := ⟨p.mat, p.extra, h'.arrays.length⟩) (by simp [Heap.rebind, Heap.alloc, lt_of_get hp']) g (by rw [← s.mats]; exact k.mat)
      rw [g2, k.pack] at this
      exact this

theorem extractCompound_spec {h : SHeap} (hs : Separate h) {i : Nat} {p : SPkg} (hp : h.pkgs[i]? = some p) (c : Str) :
    Extr h i p (extractCompound db h i p c) ((pack h p).extractCompound db c) := by
  have hm := hs.mats p (List.mem_of_getElem? hp)
  unfold extractCompound Stream.extractCompound
  have e2 : (pack h p).mfrs = h.read p.arr := rfl
  have e3 : (pack h p).mat = matAt h p.mat := rfl
  have e4 : (pack h p).P = p.extra.P := rfl
  have e5 : (pack h p).T = p.extra.T := rfl
  rw [e2, e3, e4, e5]
  have n := createEmpty_spec (db := db) hs hm (some 1) (some 25) (some 0) true
  have s := n.1
  rcases n.cases with ⟨e, h1, h2⟩ | ⟨r, o, h1, h2, k⟩
  · rw [h1, h2]; exact ⟨(Rec.refl hs hp).ext s, rfl⟩
  · rw [h1, h2]
    dsimp only
    generalize (createEmpty db h p.mat (some 1) (some 25)).2 = h' at s k ⊢
    have s' := s.sep hs
    rw [s.matAt hs, s.read _ (hs.arrays _ (mem_pkgArrays hp))]
    have base := (Rec.refl hs hp).ext s
    have hom : o.mat < h.mats.length := by rw [← s.mats]; exact k.mat
    split
    · exact ⟨base, o, rfl, k.pack, fresh_ext s hs k.lo k.hi, hom⟩
    · cases (matAt h p.mat).index c with
      | error e => exact ⟨base, rfl⟩
      | ok j =>
        dsimp only
        cases (h.read p.arr)[j]? with
        | none => exact ⟨base, rfl⟩
        | some y =>
          dsimp only
          rw [(read_pack k.pack).1]
          have k2 := k.write hs s (r.mfrs.set j y)
          have s2 := ext_write s k.lo (r.mfrs.set j y)
          generalize h'.write o.arr (r.mfrs.set j y) = h2 at k2 s2 ⊢
          have n2 := onObj_spec k2 s2 (setT_fields (db := db) p.extra.T)
          have base := (Rec.refl hs hp).ext s2
          have fin : ∀ w : Res Unit × Stream, Thermo.finish w = (match w with
            | (.error e, _) => .error e
            | (.ok _, a) => .ok a) := fun w => by obtain ⟨w1, w2⟩ := w; cases w1 <;> rfl
          generalize hw : Stream.setT db { r with mfrs := r.mfrs.set j y } p.extra.T = w at n2 ⊢
          obtain ⟨w1, w2⟩ := w
          cases w1 with
          | error e =>
            rcases n2.cases1 with ⟨e', h3, h4⟩ | ⟨r', o', h3, h4, k3⟩
            · rw [h4]; cases h3; exact ⟨base, rfl⟩
            · cases h3
          | ok u =>
            rcases n2.cases1 with ⟨e', h3, h4⟩ | ⟨r', o', h3, h4, k3⟩
            · cases h3
            · cases h3
              rw [h4]
              dsimp only
              have hp2 : h2.pkgs[i]? = some p := by rw [s2.pkgs]; exact hp
              have sep2 := s2.sep hs
              have fo := fresh_ext s2 hs k3.lo k3.hi
              have hr : h2.read p.arr = h.read p.arr := s2.read _ (hs.arrays _ (mem_pkgArrays hp))
              rw [hr]
              have r1 := rec_write sep2 hp2 ((h.read p.arr).set j (some 0))
              have k4 := setPObj_spec k3 p.extra.P
              have g := (r1.fresh hp2 (a := (setPObj o' p.extra.P).arr) fo).1
              have g2 := r1.pack hp2 (o := setPObj o' p.extra.P) fo
              have e6 : pack h2 p = pack h p := by unfold pack; rw [s2.matAt hs, hr]
              rw [e6] at r1
              have hp3 : (h2.write p.arr ((h.read p.arr).set j (some 0))).pkgs[i]? = some p := hp2
              have r5 := Ext.recv hs s2 r1
              obtain ⟨t1, t2⟩ := onStream_spec r1.upd.sep hp3 (updateHHV_fields (db := db) c (vsub (some 0) y))
              obtain ⟨q', q1, q2, q3, q4, q5⟩ := r1.get hp2
              rw [hp3] at q1
              cases q1
              rw [q3] at t1 t2
              have g3 := (t2.fresh hp3 g).1
              have g4 := t2.pack hp3 (o := setPObj o' p.extra.P) g
              generalize onStream (h2.write p.arr ((h.read p.arr).set j (some 0))) i p (fun s => s.updateHHV db c (vsub (some 0) y)) = w at t1 t2 g3 g4 ⊢
              rw [show Stream.updateHHV db ⟨matAt h p.mat, (h.read p.arr).set j (some 0), p.extra.P, p.extra.T, (pack h p).Hfr, (pack h p).isCoal, (pack h p).HHV, (pack h p).DH298⟩ c (vsub (some 0) y) =
                Stream.updateHHV db { pack h p with mfrs := (h.read p.arr).set j (some 0) } c (vsub (some 0) y) from rfl]
              generalize Stream.updateHHV db { pack h p with mfrs := (h.read p.arr).set j (some 0) } c (vsub (some 0) y) = v at t1 t2 ⊢
              obtain ⟨w1, h3⟩ := w
              obtain ⟨v1, P⟩ := v
              dsimp only at t1 t2 g3 g4
              subst t1
              have r6 := r5.trans hp hp3 t2
              cases w1 with
              | error e => exact ⟨r6, rfl⟩
              | ok u =>
                obtain ⟨p2, b1, b2, b3, b4, b5⟩ := r6.get hp
                dsimp only
                rw [b1]
                dsimp only
                have := settle_spec (db := db) r6 hp b1 g3 (by rw [← s2.mats]; exact k4.mat)
                rw [g4, g2, k4.pack] at this
                exact this

theorem extractCompoundMfr_spec {h : SHeap} (hs : Separate h) {i : Nat} {p : SPkg} (hp : h.pkgs[i]? = some p) (c : Str) (x : V) :
    Extr h i p (extractCompoundMfr db h i p c x) ((pack h p).extractCompoundMfr db c x) := by
  have hm := hs.mats p (List.mem_of_getElem? hp)
  unfold extractCompoundMfr Stream.extractCompoundMfr
  have e2 : (pack h p).mfrs = h.read p.arr := rfl
  have e3 : (pack h p).mat = matAt h p.mat := rfl
  rw [e2, e3]
  split
  · have n := createEmpty_spec (db := db) hs hm (some 1) (some 25) (some 0) true
    have s := n.1
    refine ⟨(Rec.refl hs hp).ext s, ?_⟩
    rcases n.cases with ⟨e, h1, h2⟩ | ⟨r, o, h1, h2, k⟩
    · dsimp only; rw [h1, h2]
    · dsimp only; rw [h1, h2]
      exact ⟨o, rfl, k.pack, fresh_ext s hs k.lo k.hi, by rw [← s.mats]; exact k.mat⟩
  · cases (matAt h p.mat).index c with
    | error e => exact ⟨Rec.refl hs hp, rfl⟩
    | ok j =>
      dsimp only
      cases (h.read p.arr)[j]? with
      | none => exact ⟨Rec.refl hs hp, rfl⟩
      | some y =>
        dsimp only
        by_cases hg : vgt x y
        · rw [if_pos hg, if_pos hg]; exact ⟨Rec.refl hs hp, rfl⟩
        · rw [if_neg hg, if_neg hg]
          have r1 := rec_write hs hp ((h.read p.arr).set j (vsub y x))
          obtain ⟨q, q1, q2, q3, q4, q5⟩ := r1.get hp
          have hq : q = p := by
            have : (h.write p.arr ((h.read p.arr).set j (vsub y x))).pkgs[i]? = some p := hp
            rw [q1] at this; exact Option.some.inj this
          subst hq
          generalize h.write q.arr ((h.read q.arr).set j (vsub y x)) = h1 at r1 q1 q3 ⊢
          obtain ⟨z1, z2⟩ := onStream_spec r1.upd.sep q1 (updateHHV_fields (db := db) c (vsub (some 0) x))
          rw [q3] at z1 z2
          generalize onStream h1 i q (fun s => s.updateHHV db c (vsub (some 0) x)) = w at z1 z2 ⊢
          rw [show Stream.updateHHV db ⟨matAt h q.mat, (h.read q.arr).set j (vsub y x), (pack h q).P, (pack h q).T, (pack h q).Hfr, (pack h q).isCoal, (pack h q).HHV, (pack h q).DH298⟩ c (vsub (some 0) x) =
            Stream.updateHHV db { pack h q with mfrs := (h.read q.arr).set j (vsub y x) } c (vsub (some 0) x) from rfl]
          generalize Stream.updateHHV db { pack h q with mfrs := (h.read q.arr).set j (vsub y x) } c (vsub (some 0) x) = v at z1 z2 ⊢
          obtain ⟨w1, h1'⟩ := w
          obtain ⟨v1, P0⟩ := v
          dsimp only at z1 z2
          subst z1
          have r0 := r1.trans hp q1 z2
          cases w1 with
          | error e => exact ⟨r0, rfl⟩
          | ok u0 =>
          obtain ⟨p0, b1, b2, b3, b4, b5⟩ := r0.get hp
          dsimp only
          rw [b1]
          dsimp only
          have b6 : p0.extra.T = P0.T := by rw [(read_pack b3).2.2]; rfl
          rw [b6]
          obtain ⟨t1, t2⟩ := onStream_spec r0.upd.sep b1 (setT_fields (db := db) P0.T)
          rw [b3] at t1 t2
          generalize onStream h1' i p0 (fun s => s.setT db P0.T) = w at t1 t2 ⊢
          generalize Stream.setT db P0 P0.T = v at t1 t2 ⊢
          obtain ⟨w1, h2⟩ := w
          obtain ⟨v1, P⟩ := v
          dsimp only at t1 t2
          subst t1
          have r2 := r0.trans hp b1 t2
          cases w1 with
          | error e => exact ⟨r2, rfl⟩
          | ok u =>
            obtain ⟨p2, g1, g2, g3, g4, g5⟩ := r2.get hp
            dsimp only
            rw [g1]
            dsimp only
            have sep2 := r2.upd.sep
            have hm2 : p2.mat < h2.mats.length := by rw [g4, r2.upd.mats]; exact hm
            have n := createEmpty_spec (db := db) sep2 hm2 p2.extra.P p2.extra.T (some 0) true
            obtain ⟨a1, a2, a3⟩ := read_pack g3
            have a4 : p2.extra.P = P.P := by rw [a3]; rfl
            have a5 : p2.extra.T = P.T := by rw [a3]; rfl
            rw [a2, a4, a5] at n
            rw [a4, a5]
            have s := n.1
            rcases n.cases with ⟨e, h3, h4⟩ | ⟨r, o, h3, h4, k⟩
            · rw [h3, h4]; exact ⟨r2.ext s, rfl⟩
            · rw [h3, h4]
              dsimp only
              have n2 := New.base s (plusTuple_spec (db := db) (s.sep sep2) k.mat c x)
              rw [k.pack] at n2
              have s2 := n2.1
              refine ⟨r2.ext s2, ?_⟩
              dsimp only
              rcases n2.cases with ⟨e, h5, h6⟩ | ⟨r', o', h5, h6, k2⟩
              · rw [h5, h6]
              · rw [h5, h6]
                exact ⟨o', rfl, k2.pack, fresh_ext s2 sep2 k2.lo k2.hi, by rw [← r2.upd.mats, ← s2.mats]; exact k2.mat⟩

theorem Extr.cases {h : SHeap} {i : Nat} {p : SPkg} {w : Res SPkg × SHeap} {R : Res Stream × Stream} (n : Extr h i p w R) :
    (∃ e, R = (.error e, R.2) ∧ w = (.error e, w.2)) ∨ ∃ r o, R = (.ok r, R.2) ∧ w = (.ok o, w.2) ∧ pack w.2 o = r ∧ Fresh w.2 o.arr ∧ o.mat < h.mats.length := by
  obtain ⟨s, n⟩ := n
  obtain ⟨R1, R2⟩ := R
  cases R1 with
  | error e => exact Or.inl ⟨e, rfl, by dsimp only at n; rw [← n]⟩
  | ok r =>
    obtain ⟨o, k1, k2⟩ := n
    exact Or.inr ⟨r, o, rfl, by rw [← k1], k2⟩

theorem extractLoop_spec {h : SHeap} {i : Nat} {p : SPkg} (hp : h.pkgs[i]? = some p) (cs : List Str) : ∀ (h1 : SHeap) (P : Stream) (o : SPkg) (r : Stream), Rec h h1 i p P →
    pack h1 o = r → Fresh h1 o.arr → o.mat < h.mats.length → Extr h i p (extractLoop db i cs o h1) (Thermo.extractLoopS db cs r P) := by
  induction cs with
  | nil => exact fun h1 P o r s k1 k2 k3 => ⟨s, o, rfl, k1, k2, k3⟩
  | cons c cs ih =>
    intro h1 P o r s k1 k2 k3
    obtain ⟨p2, g1, g2, g3, g4, g5⟩ := s.get hp
    have sep1 := s.upd.sep
    simp only [extractLoop, Thermo.extractLoopS, g1, g3]
    cases P.compoundMfr c with
    | error e => exact ⟨s, rfl⟩
    | ok x =>
      dsimp only
      have n := plusTuple_spec (db := db) sep1 (p := o) (by rw [s.upd.mats]; exact k3) c x
      rw [k1] at n
      have sn := n.1
      rcases n.cases with ⟨e, h3, h4⟩ | ⟨r', o', h3, h4, k4⟩
      · rw [h3, h4]; exact ⟨s.ext sn, rfl⟩
      · rw [h3, h4]
        dsimp only
        generalize (plusTuple db h1 o c x).2 = h2 at sn k4 ⊢
        have hp2 : h2.pkgs[i]? = some p2 := by rw [sn.pkgs]; exact g1
        have fo := fresh_ext sn sep1 k4.lo k4.hi
        have e := extractCompound_spec (db := db) (sn.sep sep1) hp2 c
        have e6 : pack h2 p2 = P := by
          rw [← g3]; unfold pack; rw [sn.matAt sep1, sn.read _ (sep1.arrays _ (mem_pkgArrays g1))]
        rw [e6] at e
        have er := e.1
        have s2 := (s.ext sn).trans hp hp2 er
        rcases e.cases with ⟨e', h5, h6⟩ | ⟨r2, o2, h5, h6, _⟩
        · rw [h5, h6]; exact ⟨s2, rfl⟩
        · rw [h5, h6]
          dsimp only
          refine ih _ _ o' r' s2 ?_ (er.fresh hp2 fo).1 (by rw [← s.upd.mats, ← sn.mats]; exact k4.mat)
          rw [er.pack hp2 fo, k4.pack]

theorem extractMaterial_spec {h : SHeap} (hs : Separate h) {i : Nat} {p : SPkg} (hp : h.pkgs[i]? = some p) {m : Nat} (hm : m < h.mats.length) :
    Extr h i p (extractMaterial db h i m) ((pack h p).extractMaterial db (matAt h m)) := by
  unfold extractMaterial Stream.extractMaterial
  have n := createEmpty_spec (db := db) hs hm (some 1) (some 25) (some 0) true
  have s := n.1
  rcases n.cases with ⟨e, h1, h2⟩ | ⟨r, o, h1, h2, k⟩
  · rw [h1, h2]; exact ⟨(Rec.refl hs hp).ext s, rfl⟩
  · rw [h1, h2]
    dsimp only
    rw [s.matAt hs]
    have e := extractLoop_spec (db := db) hp (matAt h m).compounds _ _ o r ((Rec.refl hs hp).ext s) k.pack (fresh_ext s hs k.lo k.hi) (by rw [← s.mats]; exact k.mat)
    have er := e.1
    rcases e.cases with ⟨e', h5, h6⟩ | ⟨r2, o2, h5, h6, k1, k2, k3⟩
    · rw [h5, h6]; exact ⟨er, rfl⟩
    · rw [h5, h6]
      dsimp only
      obtain ⟨p2, g1, g2, g3, g4, g5⟩ := er.get hp
      rw [g1]
      dsimp only
      refine ⟨er, ?_⟩
      generalize (Thermo.extractLoopS db (matAt h m).compounds r (pack h p)).2 = P at g3 ⊢
      have e7 : p2.extra.T = P.T := by rw [(read_pack g3).2.2]; rfl
      rw [e7]
      dsimp only
      unfold onObj
      rw [k1]
      dsimp only
      obtain ⟨f1, f2⟩ := setT_fields (db := db) P.T r2
      generalize r2.setT db P.T = w at f1 f2 ⊢
      obtain ⟨w1, w2⟩ := w
      cases w1 with
      | error e => rfl
      | ok u =>
        refine ⟨_, rfl, pack_tx ?_ ?_, k2, k3⟩
        · rw [f1, ← k1]; rfl
        · rw [f2, ← k1]; rfl

end Auxi.StreamHeap.Proofs
