import Verif.FileFormat
import Verif.ThermoChem

/-!
# Model of the FactSage data file reader (`/repo/auxi/tools/chemistry/thermochemistry.py:553-653,720-741`)

A file is its decoded text; numbers are exact rationals, as in `Verif.FileFormat`.  The `print` of the formula is not modelled.
-/
namespace Auxi.FactSage
open Auxi.FileFormat (readlines universal collapse split pyFloat setItem)

/-- `s.replace(old, new)` for a non-empty `old` (`thermochemistry.py:579-584`): from the left, without overlap. -/
def replace (old new : Str) : Str → Str
  | [] => []
  | c :: s => if old.isPrefixOf (c :: s) then new ++ replace old new (s.drop (old.length - 1)) else c :: replace old new s
  termination_by s => s.length
  decreasing_by all_goals simp [List.length_drop]; try omega

/-- The items of a data line (`thermochemistry.py:579-585`). -/
def tokens (line : Str) : List Str :=
  let line := replace " 298 ".toList " 298.15 ".toList line
  let line := replace " - ".toList " ".toList line
  let line := collapse line
  let line := replace " \n".toList [] line
  let line := replace "\n".toList [] line
  split line

/-- A heat capacity record as read (`thermochemistry.py:600-610`). -/
structure RecData where
  /-- `['Tmin']` -/
  Tmin : ℚ
  /-- `['Tmax']` -/
  Tmax : ℚ
  /-- `['Terms']`: coefficient and exponent -/
  terms : List (ℚ × ℚ)
  deriving DecidableEq, Repr

/-- A phase as read (`thermochemistry.py:591-595`). -/
structure PhaseData where
  /-- `['DHref']` -/
  DHref : ℚ
  /-- `['Sref']` -/
  Sref : ℚ
  /-- `['Cp_records']`, keyed by the upper temperature -/
  records : List (ℚ × RecData)
  deriving DecidableEq, Repr

/-- The variables of the loop over the lines (`thermochemistry.py:569-573`); `cprecs` is always the dictionary of records of the phase `phaseold`. -/
structure St where
  /-- `phs` -/
  phases : List (Str × PhaseData)
  /-- `phaseold` -/
  phaseold : Str
  /-- `recordold` -/
  recordold : Str
  /-- `Tmax`, if bound -/
  Tmax : Option ℚ
  deriving DecidableEq, Repr

/-- `float(strings[k])` (`thermochemistry.py:593-643`). -/
def num (ts : List Str) (k : ℕ) : Res ℚ :=
  match ts[k]? with
  | none => .error .indexError
  | some t => pyFloat t

/-- `{'Coefficient': float(strings[k]), 'Exponent': float(strings[k+1])}` (`thermochemistry.py:604-605,608-609,612-613,616-617`). -/
def term (ts : List Str) (k : ℕ) : Res (ℚ × ℚ) :=
  match num ts k with
  | .error e => .error e
  | .ok c => match num ts (k + 1) with
    | .error e => .error e
    | .ok x => .ok (c, x)

/-- One or two terms from item `k` on: two if the line has `two` items (`thermochemistry.py:603-610,629-636`). -/
def terms (ts : List Str) (k two : ℕ) : Res (List (ℚ × ℚ)) :=
  match term ts k with
  | .error e => .error e
  | .ok t => if ts.length = two then
      match term ts (k + 2) with
      | .error e => .error e
      | .ok u => .ok [t, u]
    else .ok [t]

/-- A new record (`thermochemistry.py:599-610`, `624-636`). -/
def newRecord (ts : List Str) (k two : ℕ) : Res RecData :=
  match num ts (ts.length - 1) with
  | .error e => .error e
  | .ok tmax => match num ts (ts.length - 2) with
    | .error e => .error e
    | .ok tmin => match terms ts k two with
      | .error e => .error e
      | .ok l => .ok ⟨tmin, tmax, l⟩

/-- `cprecs[x] = r` for the records of a phase (`thermochemistry.py:600,626`). -/
def setRecord (x : ℚ) (r : RecData) : List (ℚ × RecData) → List (ℚ × RecData)
  | [] => [(x, r)]
  | (y, s) :: l => if y = x then (y, r) :: l else (y, s) :: setRecord x r l

/-- `cprecs[Tmax]['Terms'].append(t)` (`thermochemistry.py:614,618,640,644`): `KeyError` if there is no such record. -/
def appendTerms (x : ℚ) (ts : List (ℚ × ℚ)) : List (ℚ × RecData) → Res (List (ℚ × RecData))
  | [] => .error .keyError
  | (y, r) :: l => if y = x then .ok ((y, { r with terms := r.terms ++ ts }) :: l) else
    match appendTerms x ts l with
    | .error e => .error e
    | .ok l' => .ok ((y, r) :: l')

/-- Further terms of the old record (`thermochemistry.py:611-618`, `637-644`), in the dictionary `recs`. -/
def moreTerms (ts : List Str) (Tmax : Option ℚ) (recs : List (ℚ × RecData)) : Res (List (ℚ × RecData)) :=
  match term ts 2 with
  | .error e => .error e
  | .ok t => match Tmax with
    | none => .error .unboundLocal
    | some x => match appendTerms x [t] recs with
      | .error e => .error e
      | .ok recs' => if ts.length = 8 then
          match term ts 4 with
          | .error e => .error e
          | .ok u => appendTerms x [u] recs'
        else .ok recs'

/-- One data line with its items (`thermochemistry.py:588-644`).  The branch for a new phase does not reset `recordold`. -/
def dataLine (ts : List Str) (st : St) : Res St :=
  let phase := ts.headD []
  let record := ts.getD 1 []
  if phase ≠ st.phaseold then
    match num ts 2 with
    | .error e => .error e
    | .ok dh => match num ts 3 with
      | .error e => .error e
      | .ok s =>
        if record ≠ st.recordold then
          match newRecord ts 4 10 with
          | .error e => .error e
          | .ok r => .ok ⟨setItem phase ⟨dh, s, [(r.Tmax, r)]⟩ st.phases, phase, record, some r.Tmax⟩
        else
          match moreTerms ts st.Tmax [] with
          | .error e => .error e
          | .ok recs => .ok ⟨setItem phase ⟨dh, s, recs⟩ st.phases, phase, record, st.Tmax⟩
  else
    match st.phases.lookup phase with
    | none => .error .keyError
    | some p =>
      if record ≠ st.recordold then
        match newRecord ts 2 8 with
        | .error e => .error e
        | .ok r => .ok ⟨setItem phase { p with records := setRecord r.Tmax r p.records } st.phases, phase, record, some r.Tmax⟩
      else
        match moreTerms ts st.Tmax p.records with
        | .error e => .error e
        | .ok recs => .ok ⟨setItem phase { p with records := recs } st.phases, phase, record, st.Tmax⟩

/-- `line.startswith('_')` (`thermochemistry.py:577,645`). -/
def isRule : Str → Bool
  | '_' :: _ => true
  | _ => false

/-- The loop over the lines once `started` (`thermochemistry.py:575-644`). -/
def dataLoop : List Str → St → Res St
  | [], st => .ok st
  | line :: lines, st =>
    if isRule line then .ok st
    else if (tokens line).length < 2 then dataLoop lines st
    else match dataLine (tokens line) st with
      | .error e => .error e
      | .ok st' => dataLoop lines st'

/-- `min(cprecs.keys())` (`thermochemistry.py:650`): `ValueError` if there are none. -/
def lowest : List (ℚ × RecData) → Res ℚ
  | [] => .error .valueError
  | (x, _) :: l => .ok (l.foldl (fun m e => if e.1 < m then e.1 else m) x)

/-- `first['Tmin'] = 298.15` (`thermochemistry.py:650-651`). -/
def start (p : PhaseData) : Res PhaseData :=
  match lowest p.records with
  | .error e => .error e
  | .ok x => .ok { p with records := p.records.map (fun e => if e.1 = x then (e.1, { e.2 with Tmin := 298.15 }) else e) }

/-- The loop over the phases at the end (`thermochemistry.py:648-651`). -/
def startAll : List (Str × PhaseData) → Res (List (Str × PhaseData))
  | [] => .ok []
  | (k, p) :: l => match start p with
    | .error e => .error e
    | .ok p' => match startAll l with
      | .error e => .error e
      | .ok l' => .ok ((k, p') :: l')

/-- A compound as read: `compound['Formula']` and `compound['Phases']` (`thermochemistry.py:566-569`). -/
structure CompoundData where
  /-- `['Formula']` -/
  formula : Str
  /-- `['Phases']` -/
  phases : List (Str × PhaseData)
  deriving DecidableEq, Repr

/-- `_read_compound_from_factsage_file_` (`thermochemistry.py:553-653`), on the lines with their terminators. -/
def readLines : List Str → Res CompoundData
  | [] => .error .indexError
  | first :: lines => match (split first)[1]? with
    | none => .error .indexError
    | some formula =>
      match dataLoop (((first :: lines).dropWhile (fun l => !isRule l)).drop 1) ⟨[], "zz".toList, "0".toList, none⟩ with
      | .error e => .error e
      | .ok st => match startAll st.phases with
        | .error e => .error e
        | .ok phases => .ok ⟨formula, phases⟩

/-- `_read_compound_from_factsage_file_` on a file with this text (`thermochemistry.py:553-653`). -/
def readFactSage (text : Str) : Res CompoundData := readLines (readlines (universal text))

/-- `CpRecord(dictionary)` (`thermochemistry.py:39-64`). -/
noncomputable def RecData.record (r : RecData) : ThermoChem.CpRecord := ⟨r.Tmin, r.Tmax, r.terms.map (fun t : ℚ × ℚ => ((t.1 : ℝ), (t.2 : ℝ)))⟩

/-- `Phase(dictionary)` (`thermochemistry.py:152-190`): a dictionary from a FactSage file has no magnetic data. -/
noncomputable def PhaseData.phase (p : PhaseData) : Res ThermoChem.Phase :=
  ThermoChem.Phase.ofDict ⟨p.DHref, p.Sref, p.records.map (fun e : ℚ × RecData => ((e.1 : ℝ), e.2.record)), none⟩

/-- The phases of a compound (`thermochemistry.py:438-441`). -/
noncomputable def phasesOf : List (Str × PhaseData) → Res (List (Str × ThermoChem.Phase))
  | [] => .ok []
  | (k, p) :: l => match p.phase with
    | .error e => .error e
    | .ok x => match phasesOf l with
      | .error e => .error e
      | .ok l' => .ok ((k, x) :: l')

/-- `Compound(dictionary)` (`thermochemistry.py:422-441`). -/
noncomputable def CompoundData.compound (c : CompoundData) : Res ThermoChem.Compound :=
  match Stoich.molarMass c.formula with
  | .error e => .error e
  | .ok m => match phasesOf c.phases with
    | .error e => .error e
    | .ok l => .ok ⟨((m / 1000 : ℚ) : ℝ), l⟩

/-- The loop of `load_data_factsage` over the texts of the files (`thermochemistry.py:737-741`): the dictionary of compounds. -/
noncomputable def loadFiles : List Str → List (Str × ThermoChem.Compound) → Res (List (Str × ThermoChem.Compound))
  | [], db => .ok db
  | t :: ts, db => match readFactSage t with
    | .error e => .error e
    | .ok d => match d.compound with
      | .error e => .error e
      | .ok c => loadFiles ts (setItem d.formula c db)

/-- `load_data_factsage(path)` for an existing path holding files with these texts (`thermochemistry.py:720-741`); the loaded data are cleared first. -/
noncomputable def load (texts : List Str) : Res (List (Str × ThermoChem.Compound)) := loadFiles texts []

end Auxi.FactSage
