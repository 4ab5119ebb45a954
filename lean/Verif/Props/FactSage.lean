import Verif.Proofs.FactSageRows
import Verif.Props.ThermoChem

/-! # C108: a FactSage data file is read as the compound it describes -/
namespace Auxi.FactSage.Props
open Auxi.FileFormat Auxi.FileFormat.Spec Auxi.FactSage.Spec

/-- **C108 (contents).** A file whose records carry labels different from the one before is read as the formula and the phases it describes: for every number of
phases, records and terms and whatever the spacing, headings and text after the table. -/
theorem C108_contents_partial (formula : Str) (ps : List Phase) (t : Str) (h : FileText formula (ps.flatMap Phase.lines) t) (hg : ∀ p ∈ ps, p.Good) (hd : Distinct ps) :
    readFactSage t = .ok ⟨formula, ps.map (fun p => (p.symbol, p.data))⟩ := by
  obtain ⟨st, e, e2⟩ := phases_spec ps ⟨[], "zz".toList, "0".toList, none⟩ hg (by simpa using hd.symbols) hd.zz hd.labels
  rw [read_parts h (reads_phases hg), e]
  dsimp only
  rw [e2, List.nil_append, startAll_ascending hg]

theorem phasesOf_objects : ∀ ps : List Phase, phasesOf (ps.map (fun p => (p.symbol, p.data))) = .ok (ps.map (fun p => (p.symbol, p.object)))
  | [] => rfl
  | p :: ps => by
    rw [List.map_cons, phasesOf, phasesOf_objects ps]
    have e : p.data.phase = .ok p.object := by
      unfold PhaseData.phase ThermoChem.Phase.ofDict
      simp only [Except.ok.injEq]
      simp [Phase.data, Phase.object, Record.object, Record.data, RecData.record, Function.comp_def]
    rw [e]; rfl

/-- **C108 (compound).** The compound made of such a file has the molar mass of the formula and the phases in the file. -/
theorem C108_compound_partial (f : File) (m : ℚ) (h : f.Good m) : ∃ d, readFactSage f.text = .ok d ∧ d.formula = f.formula ∧ d.compound = .ok (f.object m) := by
  refine ⟨_, C108_contents_partial _ _ _ h.text h.phases h.distinct, rfl, ?_⟩
  unfold CompoundData.compound
  rw [h.mass]
  dsimp only
  rw [phasesOf_objects]
  rfl

theorem lookup_setItem {α : Type} {k : Str} {v : α} {d : List (Str × α)} : (setItem k v d).lookup k = some v := by
  induction d with
  | nil => simp [setItem]
  | cons e d ih =>
    obtain ⟨k', w⟩ := e
    rw [setItem]
    split
    · rename_i h; rw [h]; simp
    · rename_i h
      rw [List.lookup_cons, show (k == k') = false from beq_false_of_ne (Ne.symm h)]
      exact ih

theorem lookup_setItem_ne {α : Type} {k k' : Str} {v : α} (hne : k' ≠ k) {d : List (Str × α)} : (setItem k v d).lookup k' = d.lookup k' := by
  induction d with
  | nil => rw [setItem, List.lookup_cons, show (k' == k) = false from beq_false_of_ne hne]
  | cons e d ih =>
    obtain ⟨k2, w⟩ := e
    rw [setItem]
    split
    · rename_i h; rw [List.lookup_cons, List.lookup_cons, h, show (k' == k) = false from beq_false_of_ne hne]
    · rw [List.lookup_cons, List.lookup_cons, ih]

theorem loadFiles_spec : ∀ (fs : List (File × ℚ)) (db : List (Str × ThermoChem.Compound)), (∀ f ∈ fs, f.1.Good f.2) → (fs.map (fun f => f.1.formula)).Nodup →
    ∃ db', loadFiles (fs.map (fun f => f.1.text)) db = .ok db' ∧ (∀ f ∈ fs, db'.lookup f.1.formula = some (f.1.object f.2)) ∧
      ∀ k, k ∉ fs.map (fun f => f.1.formula) → db'.lookup k = db.lookup k
  | [], db, _, _ => ⟨db, rfl, by simp, fun _ _ => rfl⟩
  | f :: fs, db, hg, hn => by
    rw [List.map_cons, List.nodup_cons] at hn
    obtain ⟨d, h1, h2, h3⟩ := C108_compound_partial f.1 f.2 (hg f (by simp))
    obtain ⟨db', e, e1, e2⟩ := loadFiles_spec fs (setItem f.1.formula (f.1.object f.2) db) (fun g hm => hg g (by simp [hm])) hn.2
    refine ⟨db', ?_, ?_, ?_⟩
    · rw [List.map_cons, loadFiles, h1]
      dsimp only
      rw [h3]
      dsimp only
      rw [h2]; exact e
    · intro g hm
      rcases List.mem_cons.1 hm with rfl | hm
      · rw [e2 _ hn.1, lookup_setItem]
      · exact e1 g hm
    · intro k hk
      rw [List.map_cons, List.mem_cons, not_or] at hk
      rw [e2 k hk.2, lookup_setItem_ne hk.1]

/-- **C108 (loading).** Loading a directory of such files, in whatever order, gives exactly their compounds: each is found under its formula and there are no others. -/
theorem C108_load_partial (fs : List (File × ℚ)) (hg : ∀ f ∈ fs, f.1.Good f.2) (hn : (fs.map (fun f => f.1.formula)).Nodup) :
    ∃ db, load (fs.map (fun f => f.1.text)) = .ok db ∧ (∀ f ∈ fs, db.lookup f.1.formula = some (f.1.object f.2)) ∧
      ∀ k, k ∉ fs.map (fun f => f.1.formula) → db.lookup k = none := by
  obtain ⟨db, e, e1, e2⟩ := loadFiles_spec fs [] hg hn
  exact ⟨db, e, e1, fun k hk => by rw [e2 k hk]; rfl⟩

theorem lookup_phases : ∀ {ps : List Phase} {p : Phase}, (ps.map Phase.symbol).Nodup → p ∈ ps → (ps.map (fun p => (p.symbol, p.object))).lookup p.symbol = some p.object
  | q :: ps, p, hn, hp => by
    rw [List.map_cons, List.nodup_cons] at hn
    rw [List.map_cons, List.lookup_cons]
    rcases List.mem_cons.1 hp with rfl | hp
    · simp
    · have hne : p.symbol ≠ q.symbol := fun e => hn.1 (e ▸ List.mem_map.2 ⟨p, hp, rfl⟩)
      rw [show (p.symbol == q.symbol) = false from beq_false_of_ne hne]
      exact lookup_phases hn.2 hp

theorem contiguous_more : ∀ (more : List Record) (r : Record), List.IsChain (fun a b => a.Tmax.value = b.Tmin.value) (r :: more) →
    ((r :: more).map (fun r => r.Tmax.value)).Pairwise (· < ·) →
    ThermoChem.Spec.Contiguous (r.Tmax.value : ℝ) (more.map (fun r => r.object r.Tmin.value))
  | [], _, _, _ => trivial
  | q :: more, r, hc, ha => by
    rw [List.isChain_cons_cons] at hc
    rw [List.map_cons, List.pairwise_cons] at ha
    exact ⟨rfl, by rw [hc.1]; rfl, Rat.cast_lt.2 (ha.1 q.Tmax.value (by simp)), contiguous_more more q hc.2 ha.2⟩

theorem joined_covers {p : Phase} (hp : p.Good) (hj : p.Joined) : ThermoChem.Spec.Covers p.object 298.15 p.object.records := by
  refine ⟨by norm_num, by simp [Phase.object], List.Perm.refl _, ?_⟩
  refine ⟨rfl, ?_, ?_, contiguous_more p.more p.first hj.2 hp.ascending⟩
  · change ((298.15 : ℚ) : ℝ) = 298.15; norm_num
  · change (298.15 : ℝ) < ((p.first.Tmax.value : ℚ) : ℝ)
    have h := hj.1
    have : ((298.15 : ℚ) : ℝ) < (p.first.Tmax.value : ℝ) := by exact_mod_cast h
    norm_num at this ⊢
    exact this

/-- **C108 (use).** After loading, the formation enthalpy and the entropy in the file are what the module returns at 25 °C for `formula[phase]`, in kWh and for the
given mass, and all four properties are defined at every temperature above absolute zero. -/
theorem C108_reference_partial (fs : List (File × ℚ)) (hg : ∀ f ∈ fs, f.1.Good f.2) (hn : (fs.map (fun f => f.1.formula)).Nodup) (db : List (Str × ThermoChem.Compound))
    (hl : load (fs.map (fun f => f.1.text)) = .ok db) (f : File × ℚ) (hf : f ∈ fs) (hm : f.2 ≠ 0) (p : Phase) (hp : p ∈ f.1.phases) (hj : p.Joined)
    (h1 : '[' ∉ f.1.formula ∧ ']' ∉ f.1.formula) (h2 : '[' ∉ p.symbol ∧ ']' ∉ p.symbol) (mass : ℝ) :
    ThermoChem.H db (f.1.formula ++ '[' :: p.symbol ++ [']']) 25 mass = .ok (p.DH.value / 3600000 / (f.2 / 1000) * mass) ∧
    ThermoChem.S db (f.1.formula ++ '[' :: p.symbol ++ [']']) 25 mass = .ok (p.S.value / 3600000 / (f.2 / 1000) * mass) ∧
    ∀ T : ℝ, -273.15 < T → ∀ q ∈ [ThermoChem.Cp db, ThermoChem.H db, ThermoChem.S db, ThermoChem.G db], ∃ v, q (f.1.formula ++ '[' :: p.symbol ++ [']']) T mass = .ok v := by
  obtain ⟨db', e, e1, -⟩ := C108_load_partial fs hg hn
  rw [hl] at e
  cases e
  have hc := e1 f hf
  have hph := lookup_phases (hg f hf).distinct.symbols hp
  have hM : (f.1.object f.2).molarMass ≠ 0 := by
    change ((f.2 / 1000 : ℚ) : ℝ) ≠ 0
    exact_mod_cast div_ne_zero hm (by norm_num)
  have ev : ∀ (q : ThermoChem.Phase → ℝ → Res ℝ) (T v : ℝ), q p.object (T + 273.15) = .ok v →
      ThermoChem.evaluate q db (f.1.formula ++ '[' :: p.symbol ++ [']']) T mass = .ok (v / 3600000 / (f.2 / 1000) * mass) := by
    intro q T v hv
    unfold ThermoChem.evaluate
    rw [ThermoChem.Props.C73_text _ _ h1.1 h1.2 h2.1 h2.2]
    dsimp only
    rw [hc]
    dsimp only [ThermoChem.Compound.prop]
    rw [show (f.1.object f.2).phases.lookup p.symbol = some p.object from hph]
    dsimp only
    rw [hv]
    dsimp only [ThermoChem.finalise]
    rw [if_neg hM]
    simp [File.object]
  have k := (ThermoChem.Props.C76_reference _ _ _ (joined_covers ((hg f hf).phases p hp) hj)).2.2 rfl
  have e25 : (25 : ℝ) + 273.15 = 298.15 := by norm_num
  refine ⟨ev _ 25 _ (e25 ▸ k.1), ev _ 25 _ (e25 ▸ k.2), fun T _ q hq => ?_⟩
  obtain ⟨⟨a, ha⟩, ⟨b, hb⟩, ⟨g, hg⟩, ⟨cp, hcp⟩⟩ := ThermoChem.Props.C71_defined p.object (T + 273.15) (by simp [Phase.object])
  simp only [List.mem_cons, List.not_mem_nil, or_false] at hq
  rcases hq with rfl | rfl | rfl | rfl
  · exact ⟨_, ev _ T _ hcp⟩
  · exact ⟨_, ev _ T _ ha⟩
  · exact ⟨_, ev _ T _ hb⟩
  · exact ⟨_, ev _ T _ hg⟩

/-! ### A file that meets the hypotheses -/

/-- A number for the examples. -/
def nm (t : String) (v : ℚ) : Num := ⟨t.toList, v⟩

/-- The first record of the solid: two lines. -/
def sampleA : Record := ⟨"1".toList, nm "298" 298.15, nm "800" 800, [(nm "28.175" 28.175, nm "0" 0), (nm "-7.32E-3" (-0.00732), nm "1" 1)], [[(nm "-2.9e5" (-290000), nm "-2.0" (-2))]]⟩
/-- The second record of the solid. -/
def sampleB : Record := ⟨"2".toList, nm "800" 800, nm "1184.0" 1184, [(nm "30" 30, nm "0.0" 0)], []⟩
/-- The solid. -/
def sampleS : Phase := ⟨"S1".toList, nm "0.0" 0, nm "27.28" 27.28, sampleA, [sampleB]⟩
/-- The record of the liquid. -/
def sampleC : Record := ⟨"1".toList, nm "298" 298.15, nm "3000." 3000, [(nm "46.024" 46.024, nm "0.0" 0)], []⟩
/-- The liquid. -/
def sampleL : Phase := ⟨"L1".toList, nm "12395" 12395, nm "34.3" 34.3, sampleC, []⟩

/-- The text of a file. -/
def sampleText : Str :=
  "Compound Fe Iron\nCp(T)\n____\nS1  1  0.0 27.28  28.175 0 -7.32E-3 1  298 - 800 \nS1 1 -2.9e5 -2.0 298 - 800\n\nS1 2 30 0.0 800 - 1184.0\nL1 1 12395 34.3 46.024 0.0 298 - 3000.\n____\nend".toList

/-- The file. -/
def sampleFile : File := ⟨"Fe".toList, [sampleS, sampleL], sampleText⟩

instance (s : Str) : Decidable (Item s) := inferInstanceAs (Decidable (s ≠ [] ∧ ∀ c ∈ s, isSpace c = false))
instance (s : Str) : Decidable (Inline s) := inferInstanceAs (Decidable (∀ c ∈ s, c ≠ '\n' ∧ c ≠ '\r'))

theorem nm_good {t : String} {v : ℚ} (h : Item t.toList ∧ t.toList ≠ "298".toList ∧ t.toList ≠ "-".toList ∧ pyFloat t.toList = .ok v) : (nm t v).Good := h

instance (n : Num) : Decidable n.Good := inferInstanceAs (Decidable (Item n.text ∧ n.text ≠ "298".toList ∧ n.text ≠ "-".toList ∧ pyFloat n.text = .ok n.value))
instance (n : Num) : Decidable n.Temperature := inferInstanceAs (Decidable (n.Good ∨ n.text = "298".toList ∧ n.value = 298.15))
instance (ts : List (Num × Num)) : Decidable (GoodTerms ts) := inferInstanceAs (Decidable ((ts.length = 1 ∨ ts.length = 2) ∧ ∀ t ∈ ts, t.1.Good ∧ t.2.Good))

theorem sampleA_good : sampleA.Good := ⟨by decide +kernel, by decide +kernel, by decide +kernel, by decide +kernel⟩
theorem sampleB_good : sampleB.Good := ⟨by decide +kernel, by decide +kernel, by decide +kernel, by decide +kernel⟩
theorem sampleC_good : sampleC.Good := ⟨by decide +kernel, by decide +kernel, by decide +kernel, by decide +kernel⟩
theorem sampleS_good : sampleS.Good := by
  refine ⟨by decide +kernel, by decide +kernel, ?_, by decide +kernel⟩
  intro r hr
  simp only [Phase.records, sampleS, List.mem_cons, List.not_mem_nil, or_false] at hr
  rcases hr with rfl | rfl
  exacts [sampleA_good, sampleB_good]
theorem sampleL_good : sampleL.Good := by
  refine ⟨by decide +kernel, by decide +kernel, ?_, by decide +kernel⟩
  intro r hr
  simp only [Phase.records, sampleL, List.mem_cons, List.not_mem_nil, or_false] at hr
  subst hr
  exact sampleC_good

/-- Items separated by these numbers of blanks. -/
def spaced : List (Str × ℕ) → Str → Str
  | [], z => z
  | (f, n) :: l, z => f ++ (' ' :: List.replicate n ' ') ++ spaced l z

theorem spaced_ok {l : List (Str × ℕ)} {z : Str} (h : ∀ f ∈ l, Item f.1) (hz : Item z) : Spaced (l.map (·.1) ++ [z]) (spaced l z) := by
  induction l with
  | nil => exact .one hz
  | cons f l ih => exact .cons f.2 (h f (by simp)) (ih (fun g hg => h g (by simp [hg])))

/-- The table in it. -/
def sampleTable : Str := "S1  1  0.0 27.28  28.175 0 -7.32E-3 1  298 - 800 \nS1 1 -2.9e5 -2.0 298 - 800\n\nS1 2 30 0.0 800 - 1184.0\nL1 1 12395 34.3 46.024 0.0 298 - 3000.\n____\nend".toList

theorem table_cast {rows rows' : List (List Str)} {t t' : Str} (h : Table rows t) (e : rows = rows') (e' : t = t') : Table rows' t' := e ▸ e' ▸ h

theorem sample_table : Table ([sampleS, sampleL].flatMap Phase.lines)
    sampleTable := by
  have s := fun (l : List (Str × ℕ)) (z : Str) (h : (∀ f ∈ l, Item f.1) ∧ Item z) => spaced_ok h.1 h.2
  have t := Table.row 1 (s [("S1".toList, 1), ("1".toList, 1), ("0.0".toList, 0), ("27.28".toList, 1), ("28.175".toList, 0), ("0".toList, 0), ("-7.32E-3".toList, 0), ("1".toList, 1), ("298".toList, 0), ("-".toList, 0)] "800".toList (by decide +kernel))
    (Table.row 0 (s [("S1".toList, 0), ("1".toList, 0), ("-2.9e5".toList, 0), ("-2.0".toList, 0), ("298".toList, 0), ("-".toList, 0)] "800".toList (by decide +kernel))
    (Table.blank 0 (Table.row 0 (s [("S1".toList, 0), ("2".toList, 0), ("30".toList, 0), ("0.0".toList, 0), ("800".toList, 0), ("-".toList, 0)] "1184.0".toList (by decide +kernel))
    (Table.row 0 (s [("L1".toList, 0), ("1".toList, 0), ("12395".toList, 0), ("34.3".toList, 0), ("46.024".toList, 0), ("0.0".toList, 0), ("298".toList, 0), ("-".toList, 0)] "3000.".toList (by decide +kernel))
    (Table.rule "___\nend".toList)))))
  exact table_cast t (by decide +kernel) (by decide +kernel)

theorem sampleFile_good : sampleFile.Good 55.845 := by
  refine ⟨?_, ?_, ⟨by decide +kernel, by decide +kernel, by decide +kernel⟩, by decide +kernel⟩
  · refine ⟨"Compound".toList, "Iron".toList, "___".toList, sampleTable, ["Cp(T)".toList], by decide +kernel, by decide +kernel, by decide +kernel, by decide +kernel, by decide +kernel, by decide +kernel,
      by decide +kernel, sample_table⟩
  · intro p hp
    simp only [sampleFile, List.mem_cons, List.not_mem_nil, or_false] at hp
    rcases hp with rfl | rfl
    exacts [sampleS_good, sampleL_good]

example : readFactSage sampleFile.text = .ok ⟨"Fe".toList, [("S1".toList, ⟨0, 27.28, [(800, ⟨298.15, 800, [(28.175, 0), (-0.00732, 1), (-290000, -2)]⟩), (1184, ⟨800, 1184, [(30, 0)]⟩)]⟩),
    ("L1".toList, ⟨12395, 34.3, [(3000, ⟨298.15, 3000, [(46.024, 0)]⟩)]⟩)]⟩ :=
  (C108_contents_partial sampleFile.formula sampleFile.phases sampleFile.text sampleFile_good.text sampleFile_good.phases sampleFile_good.distinct).trans (by decide +kernel)

example : ∃ db, load [sampleFile.text] = .ok db ∧ ThermoChem.H db "Fe[L1]".toList 25 2 = .ok (12395 / 3600000 / (55.845 / 1000) * 2) := by
  have hg : ∀ f ∈ [(sampleFile, (55.845 : ℚ))], f.1.Good f.2 := by
    intro f hf
    rw [List.mem_singleton.1 hf]; exact sampleFile_good
  obtain ⟨db, h, -, -⟩ := C108_load_partial [(sampleFile, 55.845)] hg (by simp)
  refine ⟨db, h, ?_⟩
  have k := (C108_reference_partial [(sampleFile, 55.845)] hg (by simp) db h _ (List.mem_singleton.2 rfl) (by norm_num) sampleL (by simp [sampleFile])
    ⟨by decide +kernel, by decide +kernel⟩ (by decide +kernel) (by decide +kernel) 2).1
  refine Eq.trans k ?_
  norm_num [sampleL, nm]

/-! ### Where the code departs from the property -/

/-- **C108 (violated).** A second phase whose first record carries the label of the record before it (such as two phases with one record each, both labelled 1)
cannot be read: `KeyError`. -/
theorem C108_restart_violated (formula : Str) (p q : Phase) (t : Str) (h : FileText formula ([p, q].flatMap Phase.lines) t) (hp : p.Good) (hq : q.Good)
    (hne : p.symbol ≠ q.symbol) (hz : p.symbol ≠ "zz".toList) (hl : List.IsChain (· ≠ ·) ("0".toList :: p.records.map Record.id))
    (hsame : some q.first.id = (p.records.map Record.id).getLast?) : readFactSage t = .error .keyError := by
  have hgood : ∀ x ∈ [p, q], x.Good := by
    intro x hx
    simp only [List.mem_cons, List.not_mem_nil, or_false] at hx
    rcases hx with rfl | rfl
    exacts [hp, hq]
  obtain ⟨T, hT⟩ := phase_spec (st := ⟨[], "zz".toList, "0".toList, none⟩) hp (by simp) hz hl
  rw [read_parts h (reads_phases hgood), List.flatMap_cons, List.flatMap_cons, List.flatMap_nil, List.append_nil, runRows_append hT, Phase.clean, List.cons_append, runRows,
    dataLine_same (dh := q.DH.value) (s := q.S.value) (x := T)]
  · exact Ne.symm hne
  · change q.first.id = _
    rw [Phase.records, List.map_cons, List.getLast?_eq_some_getLast (by simp)] at hsame
    exact Option.some.inj hsame
  · simp [num, clean, hq.numbers.1.2.2.2]
  · simp [num, clean, hq.numbers.2.2.2.2]
  · rfl

/-- Two phases with one record each, both labelled 1. -/
def twice : Str := "Compound Fe Iron\n____\nS1 1 0.0 27.28 30 0.0 800 - 1184.0\nL1 1 12395 34.3 46.024 0.0 298 - 3000.\n____\n".toList

example : readFactSage twice = .error .keyError := by
  have s := fun (l : List (Str × ℕ)) (z : Str) (h : (∀ f ∈ l, Item f.1) ∧ Item z) => spaced_ok h.1 h.2
  have t := Table.row 0 (s [("S1".toList, 0), ("1".toList, 0), ("0.0".toList, 0), ("27.28".toList, 0), ("30".toList, 0), ("0.0".toList, 0), ("800".toList, 0), ("-".toList, 0)] "1184.0".toList (by decide +kernel))
    (Table.row 0 (s [("L1".toList, 0), ("1".toList, 0), ("12395".toList, 0), ("34.3".toList, 0), ("46.024".toList, 0), ("0.0".toList, 0), ("298".toList, 0), ("-".toList, 0)] "3000.".toList (by decide +kernel))
    (Table.rule "___\n".toList))
  have hb : ({ sampleB with id := "1".toList } : Record).Good := ⟨by decide +kernel, by decide +kernel, by decide +kernel, by decide +kernel⟩
  refine C108_restart_violated "Fe".toList ⟨"S1".toList, nm "0.0" 0, nm "27.28" 27.28, { sampleB with id := "1".toList }, []⟩ sampleL twice
    ⟨"Compound".toList, "Iron".toList, "___".toList, _, [], by decide +kernel, by decide +kernel, by decide +kernel, by decide +kernel, by decide +kernel, by decide +kernel, by decide +kernel, t⟩
    ⟨by decide +kernel, by decide +kernel, ?_, by decide +kernel⟩ sampleL_good (by decide +kernel) (by decide +kernel) (by decide +kernel) (by decide +kernel)
  intro r hr
  rw [List.mem_singleton.1 hr]; exact hb

/-- **C108 (violated).** A formula at the end of the first line keeps the line end: the compound is not found under its formula. -/
theorem C108_formula_violated (a formula rest : Str) (d : CompoundData) (ha : Item a) (hf : Item formula) (h : readFactSage (a ++ ' ' :: formula ++ '\n' :: rest) = .ok d) :
    d.formula = formula ++ ['\n'] ∧ d.formula ≠ formula ∧ ∀ c, d.compound = .ok c → ∀ db, loadFiles [a ++ ' ' :: formula ++ '\n' :: rest] [] = .ok db → db.lookup formula = none := by
  have e : d.formula = formula ++ ['\n'] := by
    have hin : Inline (a ++ ' ' :: formula) := inline_append (item_inline ha) (inline_append (inline_blanks 1) (item_inline hf))
    rw [readFactSage, lines_of hin, readLines] at h
    have hs : (split (a ++ ' ' :: formula ++ ['\n']))[1]? = some (formula ++ ['\n']) := by
      rw [show a ++ ' ' :: formula ++ ['\n'] = a ++ ' ' :: (formula ++ ['\n']) by simp, split_at (item_words ha)]
      have : split (formula ++ ['\n']) = [formula ++ ['\n']] := by
        have := split_inter (ws := [formula ++ ['\n']]) (by simp) (by
          intro w hw
          rw [List.mem_singleton.1 hw]
          refine ⟨by simp, fun c hc => ?_⟩
          rcases List.mem_append.1 hc with hc | hc
          · exact item_words hf c hc
          · rw [List.mem_singleton.1 hc]; decide)
        rwa [List.intercalate_singleton] at this
      rw [this]; rfl
    rw [hs] at h
    dsimp only at h
    split at h
    · cases h
    · split at h
      · cases h
      · cases h; rfl
  refine ⟨e, by rw [e]; simp, fun c hc db hdb => ?_⟩
  rw [loadFiles, h] at hdb
  dsimp only at hdb
  rw [hc] at hdb
  cases hdb
  rw [lookup_setItem_ne]
  · rfl
  · rw [e]; simp

example : ∃ d, readFactSage "Compound Fe\n____\nS1 1 0.0 27.28 30 0.0 800 - 1184.0\n".toList = .ok d ∧ d.formula = "Fe\n".toList ∧ ∃ c, d.compound = .ok c := by
  refine ⟨⟨"Fe\n".toList, [("S1".toList, ⟨0, 27.28, [(1184, ⟨298.15, 1184, [(30, 0)]⟩)]⟩)]⟩, by decide +kernel, rfl, ?_⟩
  unfold CompoundData.compound
  rw [show Stoich.molarMass "Fe\n".toList = .ok 55.845 by decide +kernel]
  exact ⟨_, rfl⟩

/-- **C108.** A data line of a phase name and a record label only is refused with an `IndexError`. -/
theorem C108_short_line (first : Str) (pre : List Str) (rule line : Str) (rest : List Str) (formula name label : Str) (hf : (split first)[1]? = some formula)
    (hpre : ∀ l ∈ first :: pre, isRule l = false) (hrule : isRule rule = true) (hline : isRule line = false) (ht : tokens line = [name, label]) (hz : name ≠ "zz".toList) :
    readLines (first :: (pre ++ rule :: line :: rest)) = .error .indexError := by
  have hd : ((first :: (pre ++ rule :: line :: rest)).dropWhile (fun l => !isRule l)).drop 1 = line :: rest := by
    have : ∀ l : List Str, (∀ x ∈ l, isRule x = false) → (l ++ rule :: line :: rest).dropWhile (fun l => !isRule l) = rule :: line :: rest := by
      intro l
      induction l with
      | nil => intro _; simp [List.dropWhile, hrule]
      | cons x l ih =>
        intro h
        simp only [List.cons_append, List.dropWhile, h x (by simp), Bool.not_false]
        exact ih (fun y hy => h y (List.mem_cons_of_mem _ hy))
    rw [show first :: (pre ++ rule :: line :: rest) = (first :: pre) ++ rule :: line :: rest from rfl, this _ hpre]
    rfl
  rw [readLines, hf]
  dsimp only
  rw [hd]
  have : dataLine [name, label] ⟨[], "zz".toList, "0".toList, none⟩ = .error .indexError := by
    unfold dataLine
    exact if_pos hz
  rw [dataLoop, hline, ht, this]
  rfl

example : readLines ["Compound Fe Iron\n".toList, "____\n".toList, "S1 1\n".toList, "____\n".toList] = .error .indexError :=
  C108_short_line _ [] _ _ _ "Fe".toList "S1".toList "1".toList (by decide +kernel) (by decide +kernel) (by decide +kernel) (by decide +kernel) (by decide +kernel) (by decide +kernel)

end Auxi.FactSage.Props
