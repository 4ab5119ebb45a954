import Verif.Proofs.ThermoHeap
import Verif.Props.Thermo

/-! # C120: packages of `thermo.py` do not share their contents -/
namespace Auxi.ThermoHeap.Props
open Auxi Auxi.ArrHeap Auxi.ArrHeap.Spec Auxi.ArrHeap.Proofs Auxi.ThermoHeap Auxi.ThermoHeap.Spec Auxi.ThermoHeap.Proofs
open Auxi.Thermo (V Db Material Package vadd vsub vmul vdiv vgt vsum)
open Classical

variable {db : Db}

theorem mat_view {h : THeap} {m : Nat} (hm : m < h.mats.length) : mat (view h) m = some (matAt h m) := by
  simp only [mat, matAt, view_mat hm, List.getElem?_eq_getElem hm]

theorem mat_none {h : THeap} {m : Nat} (hm : ¬ m < h.mats.length) : mat (view h) m = none := by
  simp [mat, view, List.getElem?_eq_none (not_lt.1 hm)]

theorem pkg_view {h : THeap} (hs : Separate h) {i : Nat} {p : TPkg} (hp : h.pkgs[i]? = some p) : pkg (view h) i = some (pack h p) := by
  simp only [pkg, view_pkg hp, mat_view (hs.mats p (List.mem_of_getElem? hp))]; rfl

theorem pkg_none {h : THeap} {i : Nat} (hp : h.pkgs[i]? = none) : pkg (view h) i = none := by simp only [pkg, view_pkg_none hp]

theorem New.good {h : THeap} (hs : Separate h) {w : Res TPkg × THeap} {R : Res Package} (n : New h w R) : Good (finish w) (result (view h) R) := by
  have s := n.1
  rcases n.cases with ⟨e, h1, h2⟩ | ⟨r, o, h1, h2, k⟩
  · rw [h1, h2]; exact good_err hs (s.same hs) e
  · rw [h1, h2]
    have g := good_new hs (s.same hs) (m := o.mat) (by rw [← s.mats]; exact k.mat) o.extra (fresh_ext s hs k.lo k.hi)
    have p := k.pack
    obtain ⟨a1, a2, a3⟩ := read_pack p
    have a4 : r.mat.ident = o.mat := by rw [← a2, matAt_ident]
    rw [a1] at g
    simp only [result, a4, view_pkgs_length]
    rw [a3] at g
    have a5 : (⟨o.mat, tx r, o.arr⟩ : TPkg) = o := by rw [← a3]
    rw [a5] at g
    exact g

theorem become_eq {h : THeap} {i : Nat} {p : TPkg} {P : Package} (hm : P.mat = matAt h p.mat) (s : TStore) : become s i P = s.update i p.mat (tx P) P.masses := by
  simp only [become, hm, matAt_ident]; rfl

theorem Extr.good {h : THeap} {i : Nat} {p : TPkg} {w : Res TPkg × THeap} {R : Res Package × Package} (n : Extr h i p w R) :
    Good (finish w) (result (become (view h) i R.2) R.1) := by
  have u := n.1
  rcases n.cases with ⟨e, h1, h2⟩ | ⟨r, o, h1, h2, k1, k2, k3⟩
  · rw [h1, h2]
    dsimp only [result, finish]
    rw [become_eq u.mat]
    exact good_upd u.upd _
  · rw [h1, h2]
    obtain ⟨a1, a2, a3⟩ := read_pack k1
    have a4 : r.mat.ident = o.mat := by rw [← a2, matAt_ident]
    have g := good_upd_new u.upd k3 o.extra k2
    rw [a1, a3] at g
    have a5 : (⟨o.mat, tx r, o.arr⟩ : TPkg) = o := by rw [← a3]
    rw [a5] at g
    dsimp only [result]
    rw [become_eq u.mat, a4]
    simp only [Store.update, List.length_set, view_pkgs_length]
    exact g

theorem good_plus {h : THeap} (hs : Separate h) {i : Nat} {p : TPkg} (hp : h.pkgs[i]? = some p) (a : HArg) :
    Good (finish (plus db h p a)) (match pkg (view h) i, arg (view h) a with
      | some P, some A => result (view h) (P.add db A)
      | _, _ => (.error .nameError, view h)) := by
  have hm := hs.mats p (List.mem_of_getElem? hp)
  rw [pkg_view hs hp]
  cases a with
  | pkg q =>
    simp only [plus, arg]
    cases hq : h.pkgs[q]? with
    | none => rw [pkg_none hq]; exact good_err hs (Same.refl h) _
    | some Q => rw [pkg_view hs hq]; exact New.good hs (plusPkg_spec hs hm (hs.arrays _ (mem_pkgArrays hq)))
  | tup c b x =>
    simp only [plus, arg, Package.add]
    by_cases hb : b = true
    · rw [if_pos hb, if_pos hb]; exact New.good hs (plusTuple_spec hs hm c x)
    · rw [if_neg hb, if_neg hb]; exact good_err hs (Same.refl h) _
  | tup3 c b x T =>
    simp only [plus, arg]
    by_cases hb : b = true
    · rw [if_pos hb, hb]; exact New.good hs (plusTuple3_spec hs hm c x T)
    · have E : (pack h p).add db (.tup3 c b x T) = .error .typeError := by simp [Package.add, hb]
      rw [if_neg hb, E]; exact good_err hs (Same.refl h) _
  | num b x => exact good_err hs (Same.refl h) _
  | str c => exact good_err hs (Same.refl h) _
  | mat m =>
    simp only [plus, arg]
    by_cases hlt : m < h.mats.length
    · rw [if_pos hlt, mat_view hlt]; exact good_err hs (Same.refl h) _
    · rw [if_neg hlt, mat_none hlt]; exact good_err hs (Same.refl h) _
  | other => exact good_err hs (Same.refl h) _

theorem good_extract {h : THeap} (hs : Separate h) {i : Nat} {p : TPkg} (hp : h.pkgs[i]? = some p) (a : HArg) :
    Good (finish (extract db h i p a)) (match pkg (view h) i, arg (view h) a with
      | some P, some A => match P.extract db A with
        | (r, P') => result (become (view h) i P') r
      | _, _ => (.error .nameError, view h)) := by
  have same : ∀ e : PyErr, Extr h i p (.error e, h) (.error e, pack h p) := fun e => ⟨Rec.refl hs hp, rfl⟩
  rw [pkg_view hs hp]
  cases a with
  | pkg q =>
    simp only [extract, arg]
    cases hq : h.pkgs[q]? with
    | none => rw [pkg_none hq]; exact good_err hs (Same.refl h) _
    | some Q => rw [pkg_view hs hq]; exact Extr.good (same _)
  | tup c b x =>
    simp only [extract, arg, Package.extract]
    by_cases hb : b = true
    · rw [if_pos hb, if_pos hb]; exact Extr.good (extractCompoundMass_spec hs hp c x)
    · rw [if_neg hb, if_neg hb]; exact Extr.good (same _)
  | tup3 c b x T => exact Extr.good (same _)
  | num b x =>
    simp only [extract, arg, Package.extract]
    by_cases hb : b = true
    · rw [if_pos hb, if_pos hb]; exact Extr.good (extractMass_spec hs hp x)
    · rw [if_neg hb, if_neg hb]; exact Extr.good (same _)
  | str c => exact Extr.good (extractCompound_spec hs hp c)
  | mat m =>
    simp only [extract, arg]
    by_cases hlt : m < h.mats.length
    · rw [if_pos hlt, mat_view hlt]; exact Extr.good (extractMaterial_spec hs hp hlt)
    · rw [if_neg hlt, mat_none hlt]; exact good_err hs (Same.refl h) _
  | other => exact Extr.good (same _)

theorem good_setter {h : THeap} {i : Nat} {p : TPkg} {w : Res Unit × THeap} {R : Res Unit × Package} (h1 : w.1 = R.1) (r : Rec h w.2 i p R.2) :
    Good (done w) (setter (view h) i R) := by
  obtain ⟨w1, w2⟩ := w
  obtain ⟨R1, R2⟩ := R
  dsimp only at h1 r
  subst h1
  have e := become_eq (i := i) r.mat (view h)
  cases w1 with
  | error x => simp only [done, setter, e]; exact good_upd r.upd _
  | ok u => simp only [done, setter, e]; exact good_upd r.upd _

/-- **C120 (one statement)**: each operation does to the packages exactly what it does to values of their own: same outcome, same new package, same receiver afterwards (also after an
error), and nothing else. -/
theorem C120_step (h : THeap) (hs : Separate h) (c : Cmd) (hc : IsOp c) :
    ∃ o s, Spec.step db (view h) c = some (o, s) ∧ (step db h c).1 = o ∧ view (step db h c).2 = s ∧ Separate (step db h c).2 := by
  have fin : ∀ {r : Out × THeap} {s : Out × TStore}, Good r s → ∃ o t, some s = some (o, t) ∧ r.1 = o ∧ view r.2 = t ∧ Separate r.2 :=
    fun {r s} g => ⟨s.1, s.2, rfl, g.1, g.2.1, g.2.2⟩
  cases c with
  | create m a mass P T n =>
    simp only [step, Spec.step]
    by_cases hm : m < h.mats.length
    · rw [if_pos hm, mat_view hm]; exact fin (New.good hs (createPackage_spec hs hm a mass P T n))
    · rw [if_neg hm, mat_none hm]; exact fin (good_err hs (Same.refl h) _)
  | clone i =>
    simp only [step, Spec.step, withPkg]
    cases hp : h.pkgs[i]? with
    | none => rw [pkg_none hp]; exact fin (good_err hs (Same.refl h) _)
    | some p =>
      rw [pkg_view hs hp]
      have k := cloned_spec hs (hs.mats p (List.mem_of_getElem? hp))
      exact fin (New.good hs (w := (.ok (h.cloned p).2, (h.cloned p).1)) ⟨ext_alloc h _, _, rfl, k⟩)
  | plus i a =>
    simp only [step, withPkg]
    cases hp : h.pkgs[i]? with
    | none => simp only [Spec.step, pkg_none hp]; exact fin (good_err hs (Same.refl h) _)
    | some p => exact fin (good_plus hs hp a)
  | times i b k =>
    simp only [step, Spec.step, withPkg]
    cases hp : h.pkgs[i]? with
    | none => rw [pkg_none hp]; exact fin (good_err hs (Same.refl h) _)
    | some p => rw [pkg_view hs hp]; exact fin (New.good hs (times_spec hs (hs.mats p (List.mem_of_getElem? hp)) b k))
  | extract i a =>
    simp only [step, withPkg]
    cases hp : h.pkgs[i]? with
    | none => simp only [Spec.step, pkg_none hp]; exact fin (good_err hs (Same.refl h) _)
    | some p => exact fin (good_extract hs hp a)
  | clear i =>
    simp only [step, Spec.step, withPkg]
    cases hp : h.pkgs[i]? with
    | none => rw [pkg_none hp]; exact fin (good_err hs (Same.refl h) _)
    | some p =>
      rw [pkg_view hs hp]
      have r := rec_rebind hs hp ((h.read p.arr).map (fun x => vmul x (some 0))) { p.extra with P := some 1, T := some 25, H := some 0 }
      have e : become (view h) i (pack h p).clear = _ := become_eq (i := i) r.mat (view h)
      dsimp only
      rw [e]
      exact fin (good_upd r.upd (.ok none))
  | setH i x =>
    simp only [step, Spec.step, withPkg]
    cases hp : h.pkgs[i]? with
    | none => rw [pkg_none hp]; exact fin (good_err hs (Same.refl h) _)
    | some p => rw [pkg_view hs hp]; exact fin (good_setter (setH_spec hs hp x).1 (setH_spec hs hp x).2)
  | setT i x =>
    simp only [step, Spec.step, withPkg]
    cases hp : h.pkgs[i]? with
    | none => rw [pkg_none hp]; exact fin (good_err hs (Same.refl h) _)
    | some p => rw [pkg_view hs hp]; exact fin (good_setter (setT_spec hs hp x).1 (setT_spec hs hp x).2)
  | setP i x =>
    simp only [step, Spec.step, withPkg]
    cases hp : h.pkgs[i]? with
    | none => rw [pkg_none hp]; exact fin (good_err hs (Same.refl h) _)
    | some p =>
      rw [pkg_view hs hp]
      have r := rec_retag hs hp (P := (pack h p).setP x) rfl rfl
      have e := become_eq (i := i) r.mat (view h)
      dsimp only
      rw [e]
      exact fin (good_upd r.upd (.ok none))
  | array l => cases hc
  | setItem l i x => cases hc
  | construct m a P T => cases hc
  | addAssay m n l => cases hc

/-- **C120**: the same for every program: whatever is created, cloned, added, multiplied, heated, cleared and extracted in whatever order, each package behaves as a value of its own. -/
theorem C120_history (cs : List Cmd) (hc : ∀ c ∈ cs, IsOp c) : ∀ (h : THeap), Separate h →
    ∃ os s, Spec.run db (view h) cs = some (os, s) ∧ (run db h cs).1 = os ∧ view (run db h cs).2 = s ∧ Separate (run db h cs).2 := by
  induction cs with
  | nil => exact fun h hs => ⟨[], view h, rfl, rfl, rfl, hs⟩
  | cons c cs ih =>
    intro h hs
    obtain ⟨o, s, h1, h2, h3, h4⟩ := C120_step (db := db) h hs c (hc c List.mem_cons_self)
    obtain ⟨os, s', k1, k2, k3, k4⟩ := ih (fun c hh => hc c (List.mem_cons_of_mem _ hh)) (step db h c).2 h4
    rw [h3] at k1
    refine ⟨o :: os, s', ?_, ?_, k3, k4⟩
    · simp only [Spec.run, h1, k1]
    · simp only [run, h2, k2]

theorem result_keeps (s : TStore) (r : Res Package) (i : Option Nat) : Keeps s (result s r).2 i := by
  cases r with
  | error e => exact keeps_refl s i
  | ok P => exact keeps_push s i _ _ _

theorem setter_keeps (s : TStore) (i : Nat) (r : Res Unit × Package) : Keeps s (setter s i r).2 (some i) := by
  obtain ⟨r1, r2⟩ := r
  cases r1 <;> exact keeps_update s i _ _ _

theorem step_keeps {s s' : TStore} {c : Cmd} {o : Out} (h : Spec.step db s c = some (o, s')) : Keeps s s' (receiver c) := by
  have res : ∀ (r : Res Package) (i : Option Nat), result s r = (o, s') → Keeps s s' i := by
    intro r i hr
    have e : s' = (result s r).2 := by rw [hr]
    rw [e]; exact result_keeps s r i
  have st : ∀ (i : Nat) (r : Res Unit × Package), setter s i r = (o, s') → Keeps s s' (some i) := by
    intro i r hr
    have e : s' = (setter s i r).2 := by rw [hr]
    rw [e]; exact setter_keeps s i r
  have nop : ∀ {e : Out} {i : Option Nat}, (e, s) = (o, s') → Keeps s s' i := by
    intro e i he
    have : s' = s := by cases he; rfl
    rw [this]; exact keeps_refl s i
  cases c with
  | create m a mass P T n =>
    have h := Option.some.inj h
    split at h
    · exact nop h
    · exact res _ _ h
  | clone p =>
    have h := Option.some.inj h
    split at h
    · exact nop h
    · exact res _ _ h
  | plus p a =>
    have h := Option.some.inj h
    split at h
    · exact res _ _ h
    · exact nop h
  | times p b k =>
    have h := Option.some.inj h
    split at h
    · exact nop h
    · exact res _ _ h
  | extract p a =>
    have h := Option.some.inj h
    split at h
    · rename_i P A _ _
      have e : s' = (result (become s p (P.extract db A).2) (P.extract db A).1).2 := (congrArg Prod.snd h).symm
      rw [e]
      exact (keeps_update _ _ _ _ _).trans (result_keeps _ _ _)
    · exact nop h
  | clear p =>
    have h := Option.some.inj h
    split at h
    · exact nop h
    · cases h; exact keeps_update _ _ _ _ _
  | setH p x =>
    have h := Option.some.inj h
    split at h
    · exact nop h
    · exact st _ _ h
  | setT p x =>
    have h := Option.some.inj h
    split at h
    · exact nop h
    · exact st _ _ h
  | setP p x =>
    have h := Option.some.inj h
    split at h
    · exact nop h
    · cases h; exact keeps_update _ _ _ _ _
  | array l => cases h
  | setItem l i x => cases h
  | construct m a P T => cases h
  | addAssay m n l => cases h

/-- **C120 (untouched)**: a program changes only the packages that it extracts from, clears or sets: every other package keeps its masses, temperature, pressure and enthalpy, and no
operation changes an assay. -/
theorem C120_untouched (cs : List Cmd) : ∀ (h : THeap), Separate h → (∀ c ∈ cs, IsOp c) → ∀ j < h.pkgs.length, (∀ c ∈ cs, receiver c ≠ some j) →
    contents (run db h cs).2 j = contents h j ∧ ∀ m name, assayOf (run db h cs).2 m name = assayOf h m name := by
  induction cs with
  | nil => exact fun h _ _ j _ _ => ⟨rfl, fun _ _ => rfl⟩
  | cons c cs ih =>
    intro h hs hc j hj hr
    obtain ⟨o, s, h1, h2, h3, h4⟩ := C120_step (db := db) h hs c (hc c List.mem_cons_self)
    have k := step_keeps h1
    have k2 := k.len
    rw [← h3, view_pkgs_length, view_pkgs_length] at k2
    obtain ⟨i1, i2⟩ := ih (step db h c).2 h4 (fun c hh => hc c (List.mem_cons_of_mem _ hh)) j (by omega) (fun c hh => hr c (List.mem_cons_of_mem _ hh))
    have e : (run db h (c :: cs)).2 = (run db (step db h c).2 cs).2 := rfl
    rw [e, i1]
    refine ⟨?_, fun m name => ?_⟩
    · rw [contents_view, contents_view, h3, k.pkgs j (by rw [view_pkgs_length]; exact hj) (hr c List.mem_cons_self)]
    · rw [i2, assay_view, assay_view, h3, k.mats]

/-- **C120 (own arrays)**: `MaterialPackage(material, a, P, T)` with an array that nothing else holds gives an independent package; `add_assay` with an array that no package holds leaves
packages alone; an array that neither a package nor an assay holds can be changed freely. -/
theorem C120_own (h : THeap) (hs : Separate h) (a : Nat) (ha : a < h.arrays.length) (h1 : a ∉ pkgArrays h) :
    (a ∉ assayArrays h → ∀ m < h.mats.length, ∀ P T, Separate (step db h (.construct m a P T)).2 ∧ (∀ j < h.pkgs.length, contents (step db h (.construct m a P T)).2 j = contents h j) ∧
      ∀ r, Thermo.newPackage db (matAt h m) (h.read a) P T false none = .ok r →
        (step db h (.construct m a P T)).1 = .ok (some h.pkgs.length) ∧ contents (step db h (.construct m a P T)).2 h.pkgs.length = some (m, tx r, h.read a)) ∧
    (∀ m name, Separate (step db h (.addAssay m name a)).2 ∧ ∀ j, contents (step db h (.addAssay m name a)).2 j = contents h j) ∧
    (a ∉ assayArrays h → ∀ i x, Separate (step db h (.setItem a i x)).2 ∧ (∀ j, contents (step db h (.setItem a i x)).2 j = contents h j) ∧
      ∀ m name, assayOf (step db h (.setItem a i x)).2 m name = assayOf h m name) := by
  refine ⟨fun h2 m hm P T => ?_, fun m name => addAssay_own hs ha h1 m name, fun h2 i x => setItem_own hs ⟨ha, h1, h2⟩ i x⟩
  simp only [step, if_pos hm, newPkg]
  cases hr : Thermo.newPackage db (matAt h m) (h.read a) P T false none with
  | error e => exact ⟨hs, fun j _ => rfl, fun r hh => by cases hh⟩
  | ok r =>
    have k := construct_own hs ⟨ha, h1, h2⟩ hm (tx r)
    simp only [Heap.construct, if_pos hm] at k
    exact ⟨k.1, k.2.2, fun r' hh => by cases hh; exact ⟨rfl, k.2.1⟩⟩

open Auxi.Thermo.Props (db1 H_of_split flat flat_H)

theorem thermoA (T m : ℝ) : Thermo.thermoH db1 "A[S]".toList (some T) (some m) = .ok (some ((T - 25) * m)) := by
  unfold Thermo.thermoH
  dsimp only [Option.getD]
  rw [H_of_split (f := "A".toList) (ph := "S".toList) (cc := flat 3600000 0) (by decide +kernel) (by unfold db1; rfl) (by unfold flat; rfl) rfl (flat_H _ _ _)]
  dsimp only
  congr 2
  ring

/-- A material of one compound, and an array of the caller's. -/
noncomputable def ex : THeap := ⟨[⟨⟨["A[S]".toList], [], [], []⟩, []⟩], [], [[some 4]]⟩

theorem ex_sep : Separate ex := start_sep _ _ (by decide)

/-- The heap with one package of 4 kg at 125 °C, its array the caller's. -/
noncomputable def ex1 (n : Nat) : THeap := ⟨[⟨⟨["A[S]".toList], [], [], []⟩, []⟩], List.replicate n ⟨0, ⟨some 1, some 125, some 400, false, none⟩, 0⟩, [[some 4]]⟩

theorem indexA (m : Material) (hm : m.compounds = ["A[S]".toList]) : m.index "A[S]".toList = .ok 0 := by
  unfold Material.index
  rw [hm]
  simp [Chem.indexOf]

theorem calcA (P T H : V) (x t : ℝ) (m : Material) (hm : m.compounds = ["A[S]".toList]) : Thermo.calcH db1 ⟨m, [some x], P, T, H, false, none⟩ (some t) = .ok (some ((t - 25) * x)) := by
  simp only [Thermo.calcH, hm, Thermo.hLoop, Thermo.entry, indexA m hm, thermoA, vadd, Bool.false_eq_true, if_false, List.getElem?_cons_zero]
  simp

theorem construct_ex (n : Nat) : step db1 (ex1 n) (.construct 0 0 (some 1) (some 125)) = (.ok (some n), ex1 (n + 1)) := by
  have e : Thermo.newPackage db1 (matAt (ex1 n) 0) ((ex1 n).read 0) (some 1) (some 125) false none = .ok ⟨matAt (ex1 n) 0, [some 4], some 1, some 125, some 400, false, none⟩ := by
    have hr : (ex1 n).read 0 = [some 4] := rfl
    rw [hr]
    unfold Thermo.newPackage
    dsimp only
    rw [calcA _ _ _ _ _ _ rfl]
    have : vgt (Package.mass ⟨matAt (ex1 n) 0, [some 4], some 1, some 125, some 0, false, none⟩) (some 0) := by
      simp [Package.mass, vsum, vadd, vgt]
    rw [if_pos this]
    norm_num
  simp only [step, newPkg, e]
  have hl : 0 < (ex1 n).mats.length := by simp [ex1]
  rw [if_pos hl]
  simp only [finish, Heap.register, ex1, tx, List.length_replicate, List.replicate_succ']

/-- **C120 is violated** for arrays that the caller passes: the constructor keeps the caller's array and copies nothing.  Two packages made of one array: extracting everything from the first
takes the mass out of the second too, whose enthalpy stays. -/
theorem C120_shared_violated :
    contents (run db1 ex [.construct 0 0 (some 1) (some 125), .construct 0 0 (some 1) (some 125)]).2 1 = some (0, ⟨some 1, some 125, some 400, false, none⟩, [some 4]) ∧
    contents (run db1 ex [.construct 0 0 (some 1) (some 125), .construct 0 0 (some 1) (some 125), .extract 0 (.str "A[S]".toList)]).2 1 =
      some (0, ⟨some 1, some 125, some 400, false, none⟩, [some 0]) := by
  have e0 : ex = ex1 0 := rfl
  refine ⟨?_, ?_⟩
  · rw [e0]; simp only [run, construct_ex]; rfl
  · rw [e0]
    simp only [run, construct_ex]
    have hg : (ex1 2).pkgs[0]? = some ⟨0, ⟨some 1, some 125, some 400, false, none⟩, 0⟩ := rfl
    have ce : createEmpty db1 (ex1 2) 0 (some 1) (some 25) = (.ok ⟨0, ⟨some 1, some 25, some 0, false, none⟩, 1⟩, ((ex1 2).alloc [some 0]).1) := by
      unfold createEmpty
      have : (matAt (ex1 2) 0).emptyAssay = [some 0] := rfl
      rw [this]
      have n : ¬ vgt (Package.mass ⟨matAt ((ex1 2).alloc [some 0]).1 0, [some 0], some 1, some 25, some 0, false, none⟩) (some 0) := by
        simp [Package.mass, vsum, vadd, vgt]
      have hr : ((ex1 2).alloc [some 0]).1.read 1 = [some 0] := rfl
      show (newPkg db1 ((ex1 2).alloc [some 0]).1 0 1 (some 1) (some 25) false none, _) = _
      unfold newPkg Thermo.newPackage
      rw [hr]
      dsimp only
      rw [if_neg n]
      rfl
    simp only [step, withPkg, hg, extract, extractCompound, ce]
    have m : ¬ ("A[S]".toList ∉ (matAt ((ex1 2).alloc [some 0]).1 0).compounds) := by
      have : (matAt ((ex1 2).alloc [some 0]).1 0).compounds = ["A[S]".toList] := rfl
      rw [this]; simp
    rw [if_neg m, indexA _ rfl]
    dsimp only
    have hr : (((ex1 2).alloc [some 0]).1.read 0)[0]? = some (some 4) := rfl
    rw [hr]
    dsimp only
    have hp : ∀ (h : THeap) (r : TPkg) (x t : ℝ), pack h r = ⟨matAt h 0, [some x], some 1, r.extra.T, r.extra.H, false, none⟩ → (matAt h 0).compounds = ["A[S]".toList] →
        (pack h r).setT db1 (some t) = (.ok (), ⟨matAt h 0, [some x], some 1, some t, some ((t - 25) * x), false, none⟩) := by
      intro h r x t k1 k2
      rw [k1]
      unfold Package.setT
      dsimp only
      rw [calcA _ _ _ _ _ _ k2]
    have hst : ∀ (h : THeap) (r : TPkg) (x t : ℝ), pack h r = ⟨matAt h 0, [some x], some 1, r.extra.T, r.extra.H, false, none⟩ → (matAt h 0).compounds = ["A[S]".toList] →
        setTObj db1 h r (some t) = .ok { r with extra := ⟨some 1, some t, some ((t - 25) * x), false, none⟩ } := by
      intro h r x t k1 k2
      unfold setTObj
      rw [hp h r x t k1 k2]
      rfl
    rw [hst _ _ 4 125 rfl rfl]
    dsimp only
    unfold settle setT
    rw [hp _ _ 0 125 rfl rfl]
    rfl

/-! ## `custom_properties` -/

/-- How many packages a statement with this outcome has made. -/
def more : Out → Nat
  | .ok (some _) => 1
  | _ => 0

/-- The new package of a statement in the heap. -/
theorem step_count (h : THeap) (hs : Separate h) (c : Cmd) (hc : IsOp c) : (step db h c).2.pkgs.length = h.pkgs.length + more (step db h c).1 := by
  obtain ⟨o, s, h1, h2, h3, h4⟩ := C120_step (db := db) h hs c hc
  rw [← view_pkgs_length, h3, h2, ← view_pkgs_length h]
  have res : ∀ r : Res Package, (result (view h) r).2.pkgs.length = (view h).pkgs.length + more (result (view h) r).1 := by intro r; cases r <;> simp [result, Store.push, more]
  have res2 : ∀ (i : Nat) (P : Package) (r : Res Package), (result (become (view h) i P) r).2.pkgs.length = (view h).pkgs.length + more (result (become (view h) i P) r).1 := by intro i P r; cases r <;> simp [result, Store.push, become, Store.update, more]
  have st : ∀ (i : Nat) (r : Res Unit × Package), (setter (view h) i r).2.pkgs.length = (view h).pkgs.length + more (setter (view h) i r).1 := by
    intro i r; obtain ⟨r1, r2⟩ := r; cases r1 <;> simp [setter, become, Store.update, more]
  have key : ∀ w : Out × TStore, w = (o, s) → w.2.pkgs.length = (view h).pkgs.length + more w.1 → s.pkgs.length = (view h).pkgs.length + more o := by rintro w rfl k; exact k
  cases c with
  | create m a mass P T n => exact key _ (Option.some.inj h1) (by split <;> [rfl; exact res _])
  | clone p => exact key _ (Option.some.inj h1) (by split <;> [rfl; exact res _])
  | plus p a => exact key _ (Option.some.inj h1) (by split <;> [exact res _; rfl])
  | times p b k => exact key _ (Option.some.inj h1) (by split <;> [rfl; exact res _])
  | extract p a => exact key _ (Option.some.inj h1) (by split <;> [exact res2 _ _ _; rfl])
  | clear p => exact key _ (Option.some.inj h1) (by split <;> [rfl; simp [become, Store.update, more]])
  | setH p x => exact key _ (Option.some.inj h1) (by split <;> [rfl; exact st _ _])
  | setT p x => exact key _ (Option.some.inj h1) (by split <;> [rfl; exact st _ _])
  | setP p x => exact key _ (Option.some.inj h1) (by split <;> [rfl; simp [become, Store.update, more]])
  | array l => cases hc
  | setItem l i x => cases hc
  | construct m a P T => cases hc
  | addAssay m n l => cases hc

/-- Each package has one dictionary of its own. -/
structure OwnProps (H : CHeap) : Prop where
  /-- one reference for each package -/
  count : H.props.length = H.heap.pkgs.length
  /-- no two of them the same -/
  own : H.props.Nodup
  /-- the dictionaries exist -/
  lt : ∀ d ∈ H.props, d < H.dicts.length

theorem prop_get {H : CHeap} {p d : Nat} (hp : H.props[p]? = some d) (k : Str) : H.prop p k = (H.dicts[d]?.getD []).lookup k := by simp only [CHeap.prop, hp]

/-- **C120 (custom properties)**: a package of a statement that does not copy another has no custom properties; no such statement changes those of other packages; and setting a property
changes that property of that package only — as long as no package shares its dictionary. -/
theorem C120_custom_own (H : CHeap) (ho : OwnProps H) (hs : Separate H.heap) :
    (∀ c, IsOp c → dictFrom H.heap c = none → OwnProps (cstep db H (.op c)).2 ∧ Separate (cstep db H (.op c)).2.heap ∧
      (∀ p < H.heap.pkgs.length, ∀ k, (cstep db H (.op c)).2.prop p k = H.prop p k) ∧
      ∀ i, (cstep db H (.op c)).1 = .ok (some i) → ∀ k, (cstep db H (.op c)).2.prop i k = none) ∧
    (∀ p < H.heap.pkgs.length, ∀ k x, OwnProps (cstep db H (.setProp p k x)).2 ∧ (cstep db H (.setProp p k x)).2.heap = H.heap ∧
      (cstep db H (.setProp p k x)).2.prop p k = some x ∧
      ∀ q j, q ≠ p ∨ j ≠ k → (cstep db H (.setProp p k x)).2.prop q j = H.prop q j) := by
  constructor
  · intro c hc hd
    have cnt := step_count (db := db) H.heap hs c hc
    obtain ⟨o, s, h1, h2, h3, h4⟩ := C120_step (db := db) H.heap hs c hc
    have new : ∀ i, (step db H.heap c).1 = .ok (some i) → i = H.heap.pkgs.length := by
      intro i hi
      rw [hi] at h2
      subst h2
      have res : ∀ r : Res Package, result (view H.heap) r = (.ok (some i), s) → i = H.heap.pkgs.length := by
        intro r hr; cases r with
        | error e => cases hr
        | ok r => simp only [result, Prod.mk.injEq, Except.ok.injEq, Option.some.injEq, view_pkgs_length] at hr; exact hr.1.symm
      cases c with
      | create m a mass P T n =>
        have h := Option.some.inj h1
        split at h
        · cases h
        · exact res _ h
      | clone p => cases hd
      | plus p a =>
        have h := Option.some.inj h1
        split at h
        · exact res _ h
        · cases h
      | times p b k =>
        have h := Option.some.inj h1
        split at h
        · cases h
        · exact res _ h
      | extract p a =>
        have h := Option.some.inj h1
        split at h
        · rename_i P A _ _
          generalize P.extract db A = w at h
          obtain ⟨r, P'⟩ := w
          cases r with
          | error e => cases h
          | ok r =>
            simp only [result, Prod.mk.injEq, Except.ok.injEq, Option.some.injEq, become, Store.update, List.length_set, view_pkgs_length] at h
            exact h.1.symm
        · cases h
      | clear p =>
        have h := Option.some.inj h1
        split at h <;> cases h
      | setH p x =>
        have h := Option.some.inj h1
        split at h
        · cases h
        · rename_i P _
          generalize P.setH db x = w at h
          obtain ⟨r, P'⟩ := w
          cases r <;> cases h
      | setT p x =>
        have h := Option.some.inj h1
        split at h
        · cases h
        · rename_i P _
          generalize P.setT db x = w at h
          obtain ⟨r, P'⟩ := w
          cases r <;> cases h
      | setP p x =>
        have h := Option.some.inj h1
        split at h <;> cases h
      | array l => cases hc
      | setItem l i x => cases hc
      | construct m a P T => cases hc
      | addAssay m n l => cases hc
    have e : cstep db H (.op c) = ((step db H.heap c).1, H.after c (step db H.heap c).1 (step db H.heap c).2) := rfl
    rw [e]
    dsimp only
    generalize step db H.heap c = w at cnt new h4 ⊢
    obtain ⟨o', h'⟩ := w
    dsimp only at cnt new h4 ⊢
    have noNew : ∀ (u : Out), (∀ i, u ≠ .ok (some i)) → H.after c u h' = ⟨h', H.props, H.dicts⟩ := by
      intro u hu
      unfold CHeap.after
      cases u with
      | error e => rfl
      | ok v => cases v with
        | none => rfl
        | some i => exact absurd rfl (hu i)
    cases o' with
    | error x =>
      rw [noNew _ (fun i hh => by cases hh)]
      exact ⟨⟨by rw [ho.count]; exact cnt.symm, ho.own, ho.lt⟩, h4, fun p hp k => rfl, fun i hh => by cases hh⟩
    | ok v =>
      cases v with
      | none =>
        rw [noNew _ (fun i hh => by cases hh)]
        exact ⟨⟨by rw [ho.count]; exact cnt.symm, ho.own, ho.lt⟩, h4, fun p hp k => rfl, fun i hh => by cases hh⟩
      | some j =>
        have ea : H.after c (.ok (some j)) h' = ⟨h', H.props ++ [H.dicts.length], H.dicts ++ [[]]⟩ := by
          simp only [CHeap.after, hd, Option.bind_none]
        rw [ea]
        have hj := new j rfl
        refine ⟨⟨by simp [ho.count, cnt, more], ?_, ?_⟩, h4, fun p hp k => ?_, fun i hi k => ?_⟩
        · rw [List.nodup_append]
          refine ⟨ho.own, by simp, ?_⟩
          intro a ha b hb
          rw [List.mem_singleton] at hb
          have := ho.lt a ha
          omega
        · intro d hd'
          rcases List.mem_append.1 hd' with hd' | hd'
          · have := ho.lt d hd'; simp; omega
          · rw [List.mem_singleton] at hd'; simp [hd']
        · have hl : p < H.props.length := by rw [ho.count]; exact hp
          simp only [CHeap.prop]
          rw [List.getElem?_append_left hl, List.getElem?_eq_getElem hl]
          dsimp only
          rw [List.getElem?_append_left (ho.lt _ (List.getElem_mem hl))]
        · cases hi
          simp only [CHeap.prop]
          rw [hj, ← ho.count, List.getElem?_append_right (le_refl _)]
          simp
  · intro p hp k x
    have hl : p < H.props.length := by rw [ho.count]; exact hp
    have hg : H.props[p]? = some H.props[p] := List.getElem?_eq_getElem hl
    have e : cstep db H (.setProp p k x) = (.ok none, { H with dicts := H.dicts.set H.props[p] (dictSet (H.dicts[H.props[p]]?.getD []) k x) }) := by
      simp only [cstep, hg]
    rw [e]
    have hlt : H.props[p] < H.dicts.length := ho.lt _ (List.getElem_mem hl)
    refine ⟨⟨ho.count, ho.own, by simpa using ho.lt⟩, rfl, ?_, ?_⟩
    · simp only [CHeap.prop, hg]
      rw [List.getElem?_set_self hlt]
      simp [dictSet]
    · intro q j hqj
      simp only [CHeap.prop]
      cases hq : H.props[q]? with
      | none => rfl
      | some d =>
        dsimp only
        by_cases hd : H.props[p] = d
        · have : p = q := by
            have hql := lt_of_get hq
            have : H.props[q] = d := by rw [List.getElem?_eq_getElem hql] at hq; exact Option.some.inj hq
            exact (List.Nodup.getElem_inj_iff ho.own).1 (by rw [hd, this])
          subst this
          have hj : j ≠ k := by rcases hqj with h | h; exacts [absurd rfl h, h]
          subst hd
          rw [List.getElem?_set_self hlt]
          simp only [Option.getD_some, dictSet, List.lookup_cons]
          have : (j == k) = false := by simpa using hj
          rw [this]
          dsimp only
          generalize (H.dicts[H.props[p]]?.getD []) = l
          induction l with
          | nil => rfl
          | cons y l ih =>
            obtain ⟨y1, y2⟩ := y
            by_cases hy : y1 = k
            · have h1 : ((y1, y2) :: l).filter (fun e => decide (e.1 ≠ k)) = l.filter (fun e => decide (e.1 ≠ k)) := by simp [hy]
              have h2 : (j == y1) = false := by rw [hy]; simpa using hj
              rw [h1, ih, List.lookup_cons, h2]
            · have h1 : ((y1, y2) :: l).filter (fun e => decide (e.1 ≠ k)) = (y1, y2) :: l.filter (fun e => decide (e.1 ≠ k)) := by simp [hy]
              rw [h1, List.lookup_cons, List.lookup_cons, ih]
        · rw [List.getElem?_set_ne hd]

/-- **C120 is violated** for `custom_properties`: "Create a complete copy of the package" (`thermo.py:847`), but the clone, and likewise the sum of a package and a tuple, holds the dictionary
of the original: whatever is set on one is set on both. -/
theorem C120_custom_violated (H : CHeap) (ho : OwnProps H) (p : Nat) (hp : p < H.heap.pkgs.length) (k : Str) (x : V) :
    (cstep db (cstep db H (.op (.clone p))).2 (.setProp H.heap.pkgs.length k x)).2.prop p k = some x ∧
    ∀ c m, (step db H.heap (.plus p (.tup c true m))).1 = .ok (some H.heap.pkgs.length) →
      (cstep db (cstep db H (.op (.plus p (.tup c true m)))).2 (.setProp H.heap.pkgs.length k x)).2.prop p k = some x := by
  have hl : p < H.props.length := by rw [ho.count]; exact hp
  have hg : H.props[p]? = some H.props[p] := List.getElem?_eq_getElem hl
  have hlt : H.props[p] < H.dicts.length := ho.lt _ (List.getElem_mem hl)
  have key : ∀ c : Cmd, dictFrom H.heap c = some p → (step db H.heap c).1 = .ok (some H.heap.pkgs.length) →
      (cstep db (cstep db H (.op c)).2 (.setProp H.heap.pkgs.length k x)).2.prop p k = some x := by
    intro c hc hst
    have e : (cstep db H (.op c)).2 = ⟨(step db H.heap c).2, H.props ++ [H.props[p]], H.dicts⟩ := by
      have : cstep db H (.op c) = ((step db H.heap c).1, H.after c (step db H.heap c).1 (step db H.heap c).2) := rfl
      rw [this, hst]
      simp only [CHeap.after, hc, Option.bind_some, hg]
    rw [e]
    have hn : (H.props ++ [H.props[p]])[H.heap.pkgs.length]? = some H.props[p] := by
      rw [← ho.count, List.getElem?_append_right (le_refl _)]; simp
    simp only [cstep, hn, CHeap.prop]
    rw [List.getElem?_append_left hl, hg]
    dsimp only
    rw [List.getElem?_set_self hlt]
    simp [dictSet]
  refine ⟨key _ rfl ?_, fun c m hst => key _ rfl hst⟩
  have hpk : H.heap.pkgs[p]? = some H.heap.pkgs[p] := List.getElem?_eq_getElem hp
  simp only [step, withPkg, hpk]
  rfl

/-- A concrete case: 4 kg of "A" at 125 °C, cloned; the clone is heated, the original keeps its temperature. -/
example : contents (run db1 (ex1 1) [.clone 0, .setT 1 (some 225)]).2 0 = some (0, ⟨some 1, some 125, some 400, false, none⟩, [some 4]) := by
  have hs : Separate (ex1 1) := by
    refine ⟨?_, ?_, ?_, ?_, ?_⟩ <;> simp [ex1, pkgArrays, assayArrays]
  rw [(C120_untouched (db := db1) [.clone 0, .setT 1 (some 225)] (ex1 1) hs (by simp [IsOp]) 0 (by simp [ex1]) (by simp [receiver])).1]
  rfl

/-- Adding a tuple succeeds here, so the second part of `C120_custom_violated` applies. -/
example : (step db1 (ex1 1) (.plus 0 (.tup "A[S]".toList true (some 1)))).1 = .ok (some 1) := by
  have hg : (ex1 1).pkgs[0]? = some ⟨0, ⟨some 1, some 125, some 400, false, none⟩, 0⟩ := rfl
  simp only [step, withPkg, hg, plus, plusTuple, indexA (matAt (ex1 1) 0) rfl, thermoA, if_true]
  rfl

example : OwnProps ⟨ex1 1, [0], [[]]⟩ := ⟨rfl, by simp, by simp⟩

end Auxi.ThermoHeap.Props
