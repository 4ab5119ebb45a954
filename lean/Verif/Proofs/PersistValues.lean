import Verif.Proofs.PersistInit

/-!
# Directories and values (C114)
-/
namespace Auxi.Persist.Proofs
open Auxi Persist Persist.Spec Json Json.Proofs

variable {F : Type}

/-! ## Values -/

theorem records_unique {l l' : List (ℝ × ThermoChem.CpRecord)} (hp : l.Perm l') (hn : (l.map (·.1)).Nodup) (h : l.Pairwise (fun a b => a.1 ≤ b.1)) (h' : l'.Pairwise (fun a b => a.1 ≤ b.1)) : l = l' := by
  induction l generalizing l' with
  | nil => rw [List.nil_perm.1 hp]
  | cons e l ih =>
    cases l' with
    | nil => exact absurd hp.length_eq (by simp)
    | cons d l' =>
      have hs := List.pairwise_cons.1 h
      have hs' := List.pairwise_cons.1 h'
      have hn' : ((d :: l').map (·.1)).Nodup := (hp.map _).nodup_iff.1 hn
      have h1 : e ∈ d :: l' := hp.subset (List.mem_cons_self ..)
      have h2 : d ∈ e :: l := hp.symm.subset (List.mem_cons_self ..)
      have key : e.1 = d.1 := by
        rcases List.mem_cons.1 h1 with rfl | h1
        · rfl
        · rcases List.mem_cons.1 h2 with h3 | h2
          · rw [h3]
          · exact le_antisymm (hs.1 d h2) (hs'.1 e h1)
      have hed : e = d := by
        rcases List.mem_cons.1 h1 with h1 | h1
        · exact h1
        · rw [List.map_cons, List.nodup_cons] at hn'
          exact absurd (List.mem_map.2 ⟨e, h1, key⟩) hn'.1
      subst hed
      rw [List.map_cons, List.nodup_cons] at hn
      rw [ih (List.Perm.cons_inv hp) hn.2 hs.2 hs'.2]

theorem sortRecords_of_perm {l l' : List (ℝ × ThermoChem.CpRecord)} (hp : l.Perm l') (hn : (l.map (·.1)).Nodup) : ThermoChem.sortRecords l = ThermoChem.sortRecords l' :=
  records_unique ((ThermoChem.sortRecords_perm l).trans (hp.trans (ThermoChem.sortRecords_perm l').symm)) (((ThermoChem.sortRecords_perm l).map _).nodup_iff.2 hn)
    (ThermoChem.sortRecords_sorted l) (ThermoChem.sortRecords_sorted l')

theorem Cp_records {a b : ℝ} {l l' : List (ℝ × ThermoChem.CpRecord)} {m : Option ThermoChem.Mag} (h : ThermoChem.sortRecords l = ThermoChem.sortRecords l') (T : ℝ) :
    ThermoChem.Phase.Cp ⟨a, b, l, m⟩ T = ThermoChem.Phase.Cp ⟨a, b, l', m⟩ T := by
  unfold ThermoChem.Phase.Cp
  simp only [h]
  rfl

theorem property_records {f : ThermoChem.Phase → ℝ → Res ℝ} (hf : IsProperty f) {a b : ℝ} {l l' : List (ℝ × ThermoChem.CpRecord)} {m : Option ThermoChem.Mag}
    (h : ThermoChem.sortRecords l = ThermoChem.sortRecords l') (T : ℝ) : f ⟨a, b, l, m⟩ T = f ⟨a, b, l', m⟩ T := by
  cases hf with
  | Cp => exact Cp_records h T
  | H => unfold ThermoChem.Phase.H; simp only [h, Cp_records h]; rfl
  | S => unfold ThermoChem.Phase.S; simp only [h, Cp_records h]; rfl
  | G => unfold ThermoChem.Phase.G; simp only [h, Cp_records h]; rfl

theorem property_same {f : ThermoChem.Phase → ℝ → Res ℝ} (hf : IsProperty f) (val : F → ℝ) {p q : PhaseObj F} (h : SamePhase p q) (hn : (p.records.map (fun r => val r.1)).Nodup) (T : ℝ) :
    f (p.phase val) T = f (q.phase val) T := by
  have hp : (p.records.map (fun e => (val e.1, e.2.record val))).Perm (q.records.map (fun e => (val e.1, e.2.record val))) := h.records.map _
  have hs := sortRecords_of_perm hp (by rw [List.map_map]; exact hn)
  unfold PhaseObj.phase
  rw [← h.DHref, ← h.Sref, ← h.mag]
  exact property_records hf hs T

/-- The same compound gives the same values. -/
theorem prop_same {f : ThermoChem.Phase → ℝ → Res ℝ} (hf : IsProperty f) (val : F → ℝ) {c d : CompObj F} (h : SameComp c d) (hn : Distinct val c) (phase : Str) (T : ℝ) :
    (c.comp val).prop f phase T = (d.comp val).prop f phase T := by
  unfold ThermoChem.Compound.prop
  show (match (c.phases.map (fun e => (e.1, e.2.phase val))).lookup phase with | none => _ | some p => f p T) =
    (match (d.phases.map (fun e => (e.1, e.2.phase val))).lookup phase with | none => _ | some p => f p T)
  rw [lookup_map (fun p : PhaseObj F => p.phase val), lookup_map (fun p : PhaseObj F => p.phase val)]
  cases hc : c.phases.lookup phase with
  | none =>
    have : d.phases.lookup phase = none := by
      rw [lookup_none] at hc ⊢
      exact fun hd => hc (h.names.mem_iff.2 hd)
    rw [this]
  | some p =>
    obtain ⟨q, hq, hs⟩ := h.phases phase p hc
    rw [hq]
    exact property_same hf val hs (hn _ (mem_of_lookup hc)) T

theorem evaluate_same {f : ThermoChem.Phase → ℝ → Res ℝ} (hf : IsProperty f) (val : F → ℝ) {db db' : List (Str × ThermoChem.Compound)}
    (h : ∀ k, (db.lookup k = none ∧ db'.lookup k = none) ∨ ∃ c d : CompObj F, SameComp c d ∧ Distinct val c ∧ db.lookup k = some (c.comp val) ∧ db'.lookup k = some (d.comp val))
    (s : Str) (T mass : ℝ) : ThermoChem.evaluate f db s T mass = ThermoChem.evaluate f db' s T mass := by
  unfold ThermoChem.evaluate
  cases ThermoChem.splitCompound s with
  | error e => rfl
  | ok x =>
    obtain ⟨formula, phase⟩ := x
    simp only
    rcases h formula with ⟨h1, h2⟩ | ⟨c, d, h1, h2, h3, h4⟩
    · rw [h1, h2]
    · rw [h3, h4]
      simp only
      rw [prop_same hf val h1 h2 phase]
      cases (d.comp val).prop f phase (T + 273.15) with
      | error e => rfl
      | ok v =>
        simp only
        unfold ThermoChem.finalise
        have : (c.comp val).molarMass = (d.comp val).molarMass := congrArg val h1.molarMass
        rw [this]

theorem sameComp_refl (c : CompObj F) (_ : (c.phases.map (·.1)).Nodup) : SameComp c c :=
  ⟨rfl, rfl, rfl, List.Perm.refl _, fun k p h => ⟨p, h, ⟨rfl, rfl, rfl, rfl, rfl, rfl, List.Perm.refl _⟩⟩⟩

/-! ## Directories -/

/-- The name of the file of a formula. -/
abbrev fileName (f : Str) : Str := "Compound_".toList ++ f ++ ".json".toList

theorem fileName_inj {f g : Str} (h : fileName f = fileName g) : f = g := by
  unfold fileName at h
  rw [List.append_assoc, List.append_assoc] at h
  exact List.append_cancel_right (List.append_cancel_left h)

theorem fileName_data (f : Str) : isDataFile (fileName f) = true := by
  unfold isDataFile fileName
  rw [Bool.and_eq_true]
  refine ⟨List.isPrefixOf_iff_prefix.2 ?_, List.isSuffixOf_iff_suffix.2 ?_⟩
  · rw [List.append_assoc]; exact List.prefix_append _ _
  · exact List.suffix_append _ _

theorem isDataFile_iff (n : Str) : isDataFile n = true ↔ "Compound_".toList <+: n ∧ ".json".toList <:+ n := by
  unfold isDataFile
  rw [Bool.and_eq_true, List.isPrefixOf_iff_prefix, List.isSuffixOf_iff_suffix]

theorem filter_put {α : Type} {p : Str → Bool} {k : Str} (hk : p k = true) (v : α) (l : List (Str × α)) : (put k v l).filter (fun e => p e.1) = put k v (l.filter (fun e => p e.1)) := by
  induction l with
  | nil => simp [put, hk]
  | cons e l ih =>
    simp only [put]
    by_cases he : e.1 = k
    · rw [if_pos he, List.filter_cons, List.filter_cons, he, hk]
      simp only [if_true, put]
      rw [if_pos he]
    · rw [if_neg he, List.filter_cons, List.filter_cons]
      by_cases hp : p e.1 = true
      · rw [if_pos hp, if_pos hp, ih, put, if_neg he]
      · rw [if_neg hp, if_neg hp, ih]

/-- A table of compounds by formula. -/
abbrev Table (F : Type) := List (Str × (Py F × CompObj F))

/-- The files of a table. -/
def files (N : Numbers F) (m : Table F) : List (Str × Str) := m.map (fun e => (fileName e.1, text N e.2.1))

theorem files_put (N : Numbers F) (f : Str) (x : Py F × CompObj F) (m : Table F) : put (fileName f) (text N x.1) (files N m) = files N (put f x m) := by
  induction m with
  | nil => rfl
  | cons e m ih =>
    simp only [files, List.map_cons, put] at ih ⊢
    by_cases he : e.1 = f
    · rw [if_pos (by rw [he]), if_pos he, List.map_cons]
    · rw [if_neg (fun h => he (fileName_inj h)), if_neg he, List.map_cons, ih]

/-- The table after a list of writes. -/
def table (cs : List (Py F × CompObj F)) (m : Table F) : Table F := cs.foldl (fun m x => put x.2.formula x m) m

theorem formula_attr {N : Numbers F} {o : Py F} {c : CompObj F} (h : Holds N o c) : attr "formula" o = some (.str c.formula) := asStr_some ((compView_iff N o c).1 h.view).2.1

theorem writeAll_ok (N : Numbers F) (cs : List (Py F × CompObj F)) (hcs : ∀ x ∈ cs, Holds N x.1 x.2) (dir : List (Str × Str)) (m : Table F)
    (hd : dir.filter (fun e => isDataFile e.1) = files N m) :
    ∃ dir', writeAll N (cs.map (·.1)) dir = .ok dir' ∧ dir'.filter (fun e => isDataFile e.1) = files N (table cs m) := by
  induction cs generalizing dir m with
  | nil => exact ⟨dir, rfl, hd⟩
  | cons x cs ih =>
    have hx := formula_attr (hcs x (List.mem_cons_self ..))
    have hw : writeCompound N dir x.1 = .ok (put (fileName x.2.formula) (text N x.1) dir) := by
      unfold writeCompound
      rw [hx]
    obtain ⟨dir', h1, h2⟩ := ih (fun y hy => hcs y (List.mem_cons_of_mem _ hy)) (put (fileName x.2.formula) (text N x.1) dir) (put x.2.formula x m)
      (by rw [filter_put (p := isDataFile) (fileName_data _), hd, files_put])
    exact ⟨dir', by rw [List.map_cons]; simp only [writeAll]; rw [hw]; exact h1, h2⟩

theorem table_nodup (cs : List (Py F × CompObj F)) (m : Table F) (h : (m.map (·.1)).Nodup) : ((table cs m).map (·.1)).Nodup := by
  induction cs generalizing m with
  | nil => exact h
  | cons x cs ih => exact ih _ (put_nodup _ _ _ h)

theorem table_lookup (cs : List (Py F × CompObj F)) (m : Table F) (f : Str) : (table cs m).lookup f = match lastWith f cs with
    | some x => some x
    | none => m.lookup f := by
  induction cs generalizing m with
  | nil => rfl
  | cons x cs ih =>
    show (table cs (put x.2.formula x m)).lookup f = _
    rw [ih]
    unfold lastWith
    rw [List.reverse_cons, List.find?_append]
    cases h : cs.reverse.find? (fun x => x.2.formula == f) with
    | some y => rfl
    | none =>
      simp only [Option.none_or, List.find?_cons, List.find?_nil]
      rw [lookup_put]
      by_cases hf : x.2.formula = f
      · rw [if_pos hf.symm, hf]; simp
      · rw [if_neg (Ne.symm hf), beq_false_of_ne hf]

theorem table_holds {N : Numbers F} (cs : List (Py F × CompObj F)) (hcs : ∀ x ∈ cs, Holds N x.1 x.2) (m : Table F) (hm : (m.map (·.1)).Nodup) (hh : ∀ e ∈ m, Holds N e.2.1 e.2.2 ∧ e.2.2.formula = e.1) :
    ∀ e ∈ table cs m, Holds N e.2.1 e.2.2 ∧ e.2.2.formula = e.1 := by
  induction cs generalizing m with
  | nil => exact hh
  | cons x cs ih =>
    refine ih (fun y hy => hcs y (List.mem_cons_of_mem _ hy)) _ (put_nodup _ _ _ hm) ?_
    intro e he
    obtain ⟨k, v⟩ := e
    have hl := lookup_of_mem (put_nodup _ _ _ hm) he
    rw [lookup_put] at hl
    by_cases hk : k = x.2.formula
    · rw [if_pos hk] at hl; cases hl
      exact ⟨hcs x (List.mem_cons_self ..), hk.symm⟩
    · rw [if_neg hk] at hl
      exact hh _ (mem_of_lookup hl)

/-- What is loaded for an entry of the table. -/
def Loaded (N : Numbers F) (e : Str × (Py F × CompObj F)) (d : Str × Py F) : Prop := d.1 = e.1 ∧ ∃ c', Holds N d.2 c' ∧ SameComp e.2.2 c'

theorem load_ok (N : Numbers F) (ms : Table F) (hm : ∀ e ∈ ms, Holds N e.2.1 e.2.2 ∧ e.2.2.formula = e.1) (hn : (ms.map (·.1)).Nodup) (db : List (Str × Py F))
    (hd : ∀ e ∈ ms, e.1 ∉ db.map (·.1)) : ∃ l, loadFiles N (files N ms) db = (db ++ l, none) ∧ List.Forall₂ (Loaded N) ms l := by
  induction ms generalizing db with
  | nil => exact ⟨[], by simp [files, loadFiles], List.Forall₂.nil⟩
  | cons e ms ih =>
    obtain ⟨h1, h2⟩ := hm e (List.mem_cons_self ..)
    obtain ⟨o', c', r1, r2, r3, _⟩ := read_compound N h1
    have hf := formula_attr r2
    rw [← r3.formula, h2] at hf
    rw [List.map_cons, List.nodup_cons] at hn
    have hput : put e.1 o' db = db ++ [(e.1, o')] := put_new _ _ _ (hd e (List.mem_cons_self ..))
    obtain ⟨l, k1, k2⟩ := ih (fun d hd' => hm d (List.mem_cons_of_mem _ hd')) hn.2 (db ++ [(e.1, o')]) (by
      intro d hd'
      rw [List.map_append, List.mem_append, not_or]
      refine ⟨hd d (List.mem_cons_of_mem _ hd'), ?_⟩
      rw [List.map_cons, List.map_nil, List.mem_singleton]
      exact fun h => hn.1 (h ▸ List.mem_map.2 ⟨d, hd', rfl⟩))
    refine ⟨(e.1, o') :: l, ?_, List.Forall₂.cons ⟨rfl, c', r2, r3⟩ k2⟩
    show loadFiles N ((fileName e.1, text N e.2.1) :: files N ms) db = _
    simp only [loadFiles]
    rw [r1]
    simp only
    rw [hf]
    simp only
    rw [hput, k1, List.append_assoc]
    rfl

theorem perm_map_inv {α β : Type} (f : α → β) {x y : List β} (hp : x.Perm y) : ∀ m : List α, m.map f = x → ∃ m', m.Perm m' ∧ y = m'.map f := by
  induction hp with
  | nil => intro m hm; exact ⟨m, List.Perm.refl _, hm.symm⟩
  | cons a _ ih =>
    intro m hm
    cases m with
    | nil => cases hm
    | cons b m =>
      rw [List.map_cons, List.cons.injEq] at hm
      obtain ⟨m', h1, h2⟩ := ih m hm.2
      exact ⟨b :: m', h1.cons b, by rw [List.map_cons, hm.1, h2]⟩
  | swap a b l =>
    intro m hm
    cases m with
    | nil => cases hm
    | cons c m =>
      cases m with
      | nil => cases hm
      | cons d m =>
        rw [List.map_cons, List.map_cons, List.cons.injEq, List.cons.injEq] at hm
        exact ⟨d :: c :: m, List.Perm.swap .., by rw [List.map_cons, List.map_cons, hm.1, hm.2.1, hm.2.2]⟩
  | trans _ _ ih1 ih2 =>
    intro m hm
    obtain ⟨m', h1, h2⟩ := ih1 m hm
    obtain ⟨m'', h3, h4⟩ := ih2 m' h2.symm
    exact ⟨m'', h1.trans h3, h4⟩

/-- Writing to a directory and loading it. -/
theorem directory (N : Numbers F) (cs : List (Py F × CompObj F)) (hcs : ∀ x ∈ cs, Holds N x.1 x.2) (dir : List (Str × Str)) (hdir : ∀ e ∈ dir, isDataFile e.1 = false) :
    ∃ dir', writeAll N (cs.map (·.1)) dir = .ok dir' ∧ ∀ dir'', dir''.Perm dir' → ∃ db, loadAuxi N (some dir'') = (db, none) ∧ (db.map (·.1)).Nodup ∧ (∀ e ∈ db, ∃ c, Holds N e.2 c) ∧
      ∀ f, (lastWith f cs = none → db.lookup f = none) ∧
        ∀ x, lastWith f cs = some x → ∃ o' c', db.lookup f = some o' ∧ Holds N o' c' ∧ SameComp x.2 c' := by
  obtain ⟨dir', h1, h2⟩ := writeAll_ok N cs hcs dir [] (by rw [List.filter_eq_nil_iff.2 (fun e he => by rw [hdir e he]; simp)]; rfl)
  refine ⟨dir', h1, fun dir'' hp => ?_⟩
  have hpf := (hp.symm.filter (fun e => isDataFile e.1))
  rw [h2] at hpf
  obtain ⟨ms, hms, hfs⟩ := perm_map_inv _ hpf (table cs []) rfl
  have hnt := table_nodup cs ([] : Table F) List.nodup_nil
  have hht := table_holds (N := N) cs hcs [] List.nodup_nil (fun e he => nomatch he)
  have hnm : (ms.map (·.1)).Nodup := (hms.map _).nodup_iff.1 hnt
  obtain ⟨l, k1, k2⟩ := load_ok N ms (fun e he => hht e (hms.mem_iff.2 he)) hnm [] (fun e _ h => nomatch h)
  have hkeys : l.map (·.1) = ms.map (·.1) := forall₂_keys (fun a b h => h.1) k2
  have hnl : (l.map (·.1)).Nodup := by rw [hkeys]; exact hnm
  refine ⟨l, ?_, hnl, ?_, ?_⟩
  · show loadFiles N (dir''.filter (fun e => isDataFile e.1)) [] = _
    rw [hfs]
    exact k1
  · intro e he
    obtain ⟨d, _, _, c', hc', _⟩ := forall₂_right k2 he
    exact ⟨c', hc'⟩
  · intro f
    have ht := table_lookup cs ([] : Table F) f
    constructor
    · intro hn
      rw [hn] at ht
      have : f ∉ (table cs ([] : Table F)).map (·.1) := lookup_none.1 ht
      rw [lookup_none, hkeys]
      exact fun h => this ((hms.map _).mem_iff.2 h)
    · intro x hx
      rw [hx] at ht
      obtain ⟨d, hd, hd1, c', hc', hs⟩ := forall₂_left k2 (hms.mem_iff.1 (mem_of_lookup ht))
      refine ⟨d.2, c', ?_, hc', hs⟩
      refine lookup_of_mem hnl ?_
      have : f = d.1 := hd1.symm
      rw [this]
      exact hd

theorem values_lookup (N : Numbers F) (val : F → ℝ) (db : List (Str × Py F)) (f : Str) (hn : (db.map (·.1)).Nodup) :
    (db.lookup f = none → (values N val db).lookup f = none) ∧
    ∀ o c, db.lookup f = some o → compView N o = some c → (values N val db).lookup f = some (c.comp val) := by
  induction db with
  | nil => exact ⟨fun _ => rfl, fun o c h => by cases h⟩
  | cons e db ih =>
    obtain ⟨k, q⟩ := e
    rw [List.map_cons, List.nodup_cons] at hn
    obtain ⟨i1, i2⟩ := ih hn.2
    unfold values at i1 i2 ⊢
    rw [List.lookup_cons, List.filterMap_cons]
    by_cases hf : f = k
    · subst hf
      rw [beq_self_eq_true]
      refine And.intro (fun h => by cases h) (fun o c h hv => ?_)
      obtain rfl : q = o := Option.some.inj h
      simp only [hv, Option.map_some]
      rw [List.lookup_cons, beq_self_eq_true]
    · rw [beq_false_of_ne hf]
      simp only
      cases hq : compView N q with
      | none => exact ⟨i1, i2⟩
      | some d =>
        simp only [Option.map_some]
        rw [List.lookup_cons, beq_false_of_ne hf]
        exact ⟨i1, i2⟩

end Auxi.Persist.Proofs
