import Verif.Props.JsonText

/-!
# Property C114, continued: the readable texts, the class names in the files, and files that are refused
-/
namespace Auxi.Persist.Props
open Auxi Persist Persist.Spec Json Json.Proofs Persist.Proofs

/-! ## Readable texts -/

/-- Lines, each ended by a newline. -/
def lines (l : List Str) : Str := l.flatMap (· ++ ['\n'])

/-- The lines that describe a heat capacity record. -/
def recordLines {F : Type} (N : Numbers F) (r : RecObj F) : List Str :=
  ["\t\tCp RECORD:".toList, "\t\t\tTmin: ".toList ++ N.repr r.Tmin, "\t\t\tTmax: ".toList ++ N.repr r.Tmax] ++
    List.zipWith (fun c e => "\t\t\t".toList ++ N.fmt c ++ " ".toList ++ N.repr e) r.coefficients r.exponents

/-- The lines that describe a phase. -/
def phaseLines {F : Type} (N : Numbers F) (p : PhaseObj F) : List Str :=
  ["\tPHASE: ".toList ++ p.name, "\t\tName: ".toList ++ p.name, "\t\tSymbol: ".toList ++ p.symbol, "\t\tTref: ".toList ++ N.repr p.Tref, "\t\tDHref: ".toList ++ N.repr p.DHref,
    "\t\tSref: ".toList ++ N.repr p.Sref, "\t\tCp record count:".toList ++ (toString p.records.length).toList] ++ p.records.flatMap (fun e => recordLines N e.2)

theorem lines_append (a b : List Str) : lines (a ++ b) = lines a ++ lines b := List.flatMap_append

theorem asNums_map {F : Type} : ∀ {l : List (Py F)} {v : List F}, asNums l = some v → l = v.map Py.num
  | [], v, h => by injection h with h; subst h; rfl
  | o :: l, v, h => by
    cases o with
    | num x =>
      simp only [asNums, Option.map_eq_some_iff] at h
      obtain ⟨w, h1, rfl⟩ := h
      rw [asNums_map h1]; rfl
    | none => cases h
    | bool _ => cases h
    | str _ => cases h
    | list _ => cases h
    | dict _ => cases h
    | inst _ _ => cases h
    | method _ => cases h

theorem asNumList_some {F : Type} {x : Option (Py F)} {v : List F} (h : asNumList x = some v) : x = some (.list (v.map Py.num)) := by
  unfold asNumList at h
  split at h
  · rw [asNums_map h]
  · cases h

theorem termLines_eq {F : Type} (N : Numbers F) : ∀ cs es : List F, termLines N (cs.map Py.num) (es.map Py.num) =
    lines (List.zipWith (fun c e => "\t\t\t".toList ++ N.fmt c ++ " ".toList ++ N.repr e) cs es)
  | [], _ => rfl
  | c :: cs, [] => rfl
  | c :: cs, e :: es => by
    rw [List.map_cons, List.map_cons, termLines, termLines_eq N cs es, List.zipWith_cons_cons]
    simp only [shown, lines, List.flatMap_cons, List.append_assoc]
    rfl

theorem recView_iff {F : Type} {o : Py F} {r : RecObj F} (h : recView o = some r) :
    cls o = some recordClass ∧ attr "Tmin" o = some (.num r.Tmin) ∧ attr "Tmax" o = some (.num r.Tmax) ∧ attr "_coefficients" o = some (.list (r.coefficients.map Py.num)) ∧
      attr "_exponents" o = some (.list (r.exponents.map Py.num)) := by
  unfold recView at h
  split at h
  · rename_i c a b cs es h1 h2 h3 h4 h5
    split at h
    · rename_i hc
      injection h with h
      subst h
      exact ⟨by rw [h1, hc], asNum_some h2, asNum_some h3, asNumList_some h4, asNumList_some h5⟩
    · cases h
  · cases h

theorem recordText_eq {F : Type} (N : Numbers F) {o : Py F} {r : RecObj F} (h : recView o = some r) : recordText N o = lines (recordLines N r) := by
  obtain ⟨_, h2, h3, h4, h5⟩ := recView_iff h
  unfold recordText
  rw [h2, h3, h4, h5]
  simp only
  rw [termLines_eq, recordLines, lines_append]
  simp only [shown, lines, List.flatMap_cons, List.flatMap_nil, List.append_assoc]
  rfl

/-- **C114 (the text of a record).** The readable text of a heat capacity record shows its temperatures and one line for each term, its coefficient before its exponent. -/
theorem C114_record_text {F : Type} (N : Numbers F) {o : Py F} {r : RecObj F} (h : recView o = some r) :
    cls o = some "auxi.tools.chemistry.thermochemistry.CpRecord".toList ∧ text N o = lines (recordLines N r) := by
  have hc := (recView_iff h).1
  refine ⟨hc, ?_⟩
  unfold text
  rw [hc, if_pos rfl]
  exact recordText_eq N h

example : text ints (exRecord 298 900 20 1) = "\t\tCp RECORD:\n\t\t\tTmin: 298\n\t\t\tTmax: 900\n\t\t\t20 0\n\t\t\t1 1\n".toList := (C114_record_text ints (r := ⟨298, 900, [20, 1], [0, 1]⟩) rfl).2.trans (by decide)

theorem recViews_text {F : Type} (N : Numbers F) : ∀ {l : List (Str × Py F)} {v : List (F × RecObj F)}, recViews N l = some v →
    l.length = v.length ∧ l.flatMap (fun e => recordText N e.2) = lines (v.flatMap (fun e => recordLines N e.2))
  | [], v, h => by injection h with h; subst h; exact ⟨rfl, rfl⟩
  | (k, o) :: l, v, h => by
    unfold recViews at h
    split at h
    · rename_i x r w h1 h2 h3
      split at h
      · injection h with h
        subst h
        obtain ⟨g1, g2⟩ := recViews_text N h3
        refine ⟨by rw [List.length_cons, List.length_cons, g1], ?_⟩
        rw [List.flatMap_cons, g2, recordText_eq N h2, List.flatMap_cons, lines_append]
      · cases h
    · cases h

/-- **C114 (the text of a phase).** The readable text of a phase shows its name, symbol, reference values, the number of its records, and then each record. -/
theorem C114_phase_text {F : Type} (N : Numbers F) {o : Py F} {p : PhaseObj F} (h : phaseView N o = some p) :
    cls o = some "auxi.tools.chemistry.thermochemistry.Phase".toList ∧ text N o = lines (phaseLines N p) := by
  rw [phaseView_iff] at h
  obtain ⟨hc, h1, h2, h3, h4, h5, _, h67⟩ := h
  obtain ⟨l, h6, h7⟩ := Option.bind_eq_some_iff.1 h67
  refine ⟨hc, ?_⟩
  obtain ⟨g1, g2⟩ := recViews_text N h7
  unfold text
  rw [hc, if_neg (by decide), if_pos rfl]
  unfold phaseText
  rw [asStr_some h1, asStr_some h2, asNum_some h3, asNum_some h4, asNum_some h5, asDict_some h6]
  simp only
  rw [g1, g2, phaseLines, lines_append]
  simp only [shown, lines, List.flatMap_cons, List.flatMap_nil, List.append_assoc]
  rfl

example : text ints exPhase = ("\tPHASE: S\n\t\tName: S\n\t\tSymbol: S\n\t\tTref: 298\n\t\tDHref: -1200\n\t\tSref: 27\n\t\tCp record count:2\n" ++
    "\t\tCp RECORD:\n\t\t\tTmin: 298\n\t\t\tTmax: 900\n\t\t\t20 0\n\t\t\t1 1\n\t\tCp RECORD:\n\t\t\tTmin: 900\n\t\t\tTmax: 1800\n\t\t\t30 0\n\t\t\t2 1\n").toList :=
  (C114_phase_text ints (p := ⟨"S".toList, "S".toList, 298, -1200, 27, none, [(900, ⟨298, 900, [20, 1], [0, 1]⟩), (1800, ⟨900, 1800, [30, 2], [0, 1]⟩)]⟩) rfl).2.trans (by decide +kernel)

theorem phaseViews_keys {F : Type} (N : Numbers F) : ∀ {l : List (Str × Py F)} {v : List (Str × PhaseObj F)}, phaseViews N l = some v → l.map (·.1) = v.map (·.1)
  | [], v, h => by injection h with h; subst h; rfl
  | (k, o) :: l, v, h => by
    unfold phaseViews at h
    split at h
    · rename_i p w h1 h2
      injection h with h
      subst h
      rw [List.map_cons, List.map_cons, phaseViews_keys N h2]
    · cases h

/-- **C114 (what a compound object holds).** The data of a compound are the attributes of the object: its class, formula, molar mass, its reference (a text or `None`), and the dictionary of its phases. -/
theorem C114_compound_class {F : Type} (N : Numbers F) {o : Py F} {c : CompObj F} (h : compView N o = some c) : cls o = some "auxi.tools.chemistry.thermochemistry.Compound".toList ∧
    attr "formula" o = some (.str c.formula) ∧ attr "molar_mass" o = some (.num c.molarMass) ∧ attr "reference" o = some (match c.reference with | some r => .str r | none => .none) ∧
    ∃ l, attr "_phases" o = some (.dict l) ∧ l.map (·.1) = c.phases.map (·.1) := by
  rw [compView_iff] at h
  obtain ⟨h1, h2, h3, h4, h5⟩ := h
  obtain ⟨l, h6, h7⟩ := Option.bind_eq_some_iff.1 h5
  refine ⟨h1, asStr_some h2, asNum_some h3, ?_, l, asDict_some h6, ?_⟩
  · revert h4
    generalize attr "reference" o = x
    generalize c.reference = r
    intro h4
    unfold asRef at h4
    split at h4
    · injection h4 with h4; subst h4; rfl
    · injection h4 with h4; subst h4; rfl
    · cases h4
  · exact phaseViews_keys N h7

example : cls exCompound = some "auxi.tools.chemistry.thermochemistry.Compound".toList ∧ attr "reference" exCompound = some (.str "rao1985".toList) :=
  ⟨(C114_compound_class ints exCompound_view).1, (C114_compound_class ints exCompound_view).2.2.2.1⟩

/-! ## Classes in the files -/

/-- The name of the class of a phase in a file. -/
def phaseName : Str := "auxi.tools.chemistry.thermochemistry.Phase".toList
/-- The name of the class of a compound in a file. -/
def compoundName : Str := "auxi.tools.chemistry.thermochemistry.Compound".toList

/-- **C114 (the class in a file that is read).** A file with the entry `py/object` gives an instance of that class, with the other entries as attributes; all classes but those of phases and compounds. -/
theorem C114_class_read {F : Type} (N : Numbers F) {s : Str} {l : List (Str × J F)} {c : Str} (h : loads N.toFloats s = .ok (.obj l)) (hc : l.lookup "py/object".toList = some (.str c))
    (h1 : c ≠ phaseName) (h2 : c ≠ compoundName) :
    ∃ o, read N s = .ok o ∧ cls o = some c ∧ ∀ k : String, ¬ "py/".toList <+: k.toList → attr k o = (l.lookup k.toList).map restore := by
  have ht : tagOf l = some c := by unfold tagOf; rw [show tag = "py/object".toList from rfl, hc]
  have hr : restore (.obj l) = .inst c (restoreAttrs l) := by rw [restore, ht]
  refine ⟨.inst c (restoreAttrs l), ?_, rfl, fun k hk => ?_⟩
  · unfold read
    rw [h]
    simp only
    rw [hr]
    unfold init initEntry
    rw [if_neg (by intro hh; injection hh with hh; exact h2 hh), if_neg (by intro hh; injection hh with hh; exact h1 hh), if_pos (by rfl)]
  · have hk' := (reserved_iff k.toList).2 hk
    show (restoreAttrs l).lookup k.toList = _
    rw [restoreAttrs_eq]
    clear h hc ht hr
    induction l with
    | nil => rfl
    | cons e l ih =>
      obtain ⟨k', j⟩ := e
      rw [List.filter_cons]
      by_cases hr : reserved k' = true
      · rw [hr]
        simp only [Bool.not_true, Bool.false_eq_true, if_false]
        rw [ih, List.lookup_cons, beq_false_of_ne (by rintro rfl; rw [hr] at hk'; cases hk')]
      · simp only [Bool.not_eq_true] at hr
        rw [hr]
        simp only [Bool.not_false, if_true, List.map_cons, List.lookup_cons]
        rw [ih]
        split <;> rfl

/-- **C114 (the class in a file that is written).** -/
theorem C114_class_written {F : Type} (N : Numbers F) {o : Py F} (h : Plain o) {c : Str} (hc : cls o = some c) (h1 : c ≠ phaseName)
    (h2 : c ≠ "auxi.tools.chemistry.thermochemistry.CpRecord".toList) :
    ∃ l, loads N.toFloats (text N o) = .ok (.obj l) ∧ l.lookup "py/object".toList = some (.str c) := by
  have ht : text N o = dumps N.toFloats (flatten o) := by
    unfold text
    rw [hc, if_neg (by intro hh; injection hh with hh; exact h2 hh), if_neg (by intro hh; injection hh with hh; exact h1 hh)]
  have hp := proper_flatten o h
  rw [ht, loads_dumps N.toFloats _ hp]
  obtain ⟨l, rfl⟩ := inst_of_cls hc
  rw [flatten] at hp ⊢
  rw [sorted]
  refine ⟨_, rfl, ?_⟩
  have hn : ((sortedPairs ((tag, J.str c) :: flattenPairs l)).map (·.1)).Nodup := by
    rw [sortedPairs_eq, map_keys]; exact hp.1
  rw [← lookup_perm (sortKeys_perm _).symm hn]
  rw [sortedPairs_eq, List.map_cons, List.lookup_cons]
  rfl

example : ∃ o, read ints (text ints exAccount) = .ok o ∧ cls o = some "auxi.modelling.financial.des.GeneralLedgerAccount".toList ∧ attr "number" o = some (.str "0010/000".toList) := by
  obtain ⟨l, h1, h2⟩ := C114_class_written ints (o := exAccount) ⟨by decide, by decide, Or.inr trivial, by decide, Or.inr trivial, by decide, Or.inr trivial, by decide,
    Or.inr ⟨trivial, trivial, trivial, trivial⟩, trivial⟩ rfl (by decide) (by decide)
  obtain ⟨o, h3, h4, h5⟩ := C114_class_read ints h1 h2 (by decide) (by decide)
  obtain ⟨o', g1, _, g2, _⟩ := C114_object ints exAccount ⟨by decide, by decide, Or.inr trivial, by decide, Or.inr trivial, by decide, Or.inr trivial, by decide,
    Or.inr ⟨trivial, trivial, trivial, trivial⟩, trivial⟩ rfl (by decide) (by decide) (by decide)
  rw [h3] at g1
  injection g1 with g1
  subst g1
  refine ⟨o, h3, h4, ?_⟩
  have := g2 [.key "number".toList]
  obtain ⟨l', rfl⟩ := inst_of_cls h4
  have e : look [.key "number".toList] exAccount = some (.str "0010/000".toList) := rfl
  rw [e] at this
  simp only [look, child] at this
  show l'.lookup "number".toList = _
  cases hl : l'.lookup "number".toList with
  | none => rw [hl] at this; cases this
  | some v => rw [hl] at this; cases v <;> simp_all [face]

/-! ## Files that are refused -/

/-- **C114 (refused: an entry of the phases that is no object).** -/
theorem C114_bad_phase {F : Type} (N : Numbers F) {s : Str} {l ps : List (Str × J F)} {k : Str} {x : F} (h : loads N.toFloats s = .ok (.obj l))
    (hc : l.lookup "py/object".toList = some (.str compoundName)) (hp : l.lookup "_phases".toList = some (.obj ((k, .num x) :: ps))) (hk : k ≠ "py/object".toList)
    (hps : ps.lookup "py/object".toList = none) : read N s = .error .attributeError := by
  have ht : tagOf l = some compoundClass := by unfold tagOf; rw [show tag = "py/object".toList from rfl, hc]; rfl
  have hr : restore (.obj l) = .inst compoundClass (restoreAttrs l) := by rw [restore, ht]
  have hlook : ∀ {k : Str} {l : List (Str × J F)}, reserved k = false → (restoreAttrs l).lookup k = (l.lookup k).map restore := by
    intro k l hk'
    rw [restoreAttrs_eq]
    induction l with
    | nil => rfl
    | cons e l ih =>
      obtain ⟨k', j⟩ := e
      rw [List.filter_cons]
      by_cases hr : reserved k' = true
      · rw [hr]
        simp only [Bool.not_true, Bool.false_eq_true, if_false]
        rw [ih, List.lookup_cons, beq_false_of_ne (by rintro rfl; rw [hr] at hk'; cases hk')]
      · simp only [Bool.not_eq_true] at hr
        rw [hr]
        simp only [Bool.not_false, if_true, List.map_cons, List.lookup_cons]
        rw [ih]
        split <;> rfl
  have ht2 : tagOf ((k, J.num x) :: ps) = none := by
    unfold tagOf
    rw [show tag = "py/object".toList from rfl, List.lookup_cons, beq_false_of_ne (fun h => hk h.symm), hps]
  have ha : attr "_phases" (.inst compoundClass (restoreAttrs l)) = some (.dict ((k, .num x) :: restorePairs ps)) := by
    show (restoreAttrs l).lookup "_phases".toList = _
    rw [hlook (by decide), hp, Option.map_some, restore, ht2]
    rfl
  unfold read
  rw [h]
  simp only
  rw [hr]
  unfold init
  rw [if_pos (show cls _ = some compoundClass from rfl), ha]
  rfl

/-- A compound file whose phases hold a number. -/
def badDoc : J ℤ := .obj [("_phases".toList, .obj [("S".toList, .num 5)]), ("py/object".toList, .str compoundName)]

example : read ints (dumps ints.toFloats badDoc) = .error .attributeError := by
  have h : loads ints.toFloats (dumps ints.toFloats badDoc) = .ok badDoc := by
    rw [loads_dumps ints.toFloats badDoc (by refine ⟨by decide, ⟨by decide, trivial, trivial⟩, trivial, trivial⟩)]
    rfl
  exact C114_bad_phase ints h rfl (k := "S".toList) (x := 5) (ps := []) rfl (by decide) rfl

end Auxi.Persist.Props
