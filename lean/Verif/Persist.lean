import Verif.Json
import Verif.ThermoChem

/-!
# Model of writing objects to files and reading them back

`/repo/auxi/core/objects.py:17-46` (`Object.__str__`, `write`, `read`) and `/repo/auxi/tools/chemistry/thermochemistry.py` (`_init`, the `__str__` methods, `write_compound_to_auxi_file`,
`load_data_auxi`), with the part of `jsonpickle` that these call: `encode` of trees of `None`, booleans, numbers, strings, lists, dictionaries with string keys, instances and bound methods.

Simplifications: objects are trees (the objects that the library writes share no parts, so that `jsonpickle` writes no `py/id`); the class of every instance can be imported when the file is
read; all keys that begin with `py/` count as reserved; a file is its text, a directory is a list of names and texts; formulas contain no `/`.
-/
namespace Auxi.Persist
open Json

/-- A Python object (`objects.py:22-46`): instances have a class and attributes; `method m` is the bound method `m` of the instance that holds it. -/
inductive Py (F : Type)
  | none
  | bool (b : Bool)
  | num (x : F)
  | str (s : Str)
  | list (l : List (Py F))
  | dict (l : List (Str × Py F))
  | inst (cls : Str) (attrs : List (Str × Py F))
  | method (name : Str)

/-- The numbers of the files (`objects.py:24,45`) with the arithmetic of `Phase._init` (`thermochemistry.py:195-197`, `none` is `ZeroDivisionError`) and the format of the coefficients in the readable
text of a record (`thermochemistry.py:72`). -/
structure Numbers (F : Type) extends Floats F where
  /-- `79/(140*p)`, `(474/497)*(1/p - 1)`, `(518/1125) + (11692/15975)*(1/p - 1)` -/
  derived : F → Option (F × F × F)
  /-- `'{:.8e}'.format(x)` -/
  fmt : F → Str

/-- `jsonpickle.tags.OBJECT` (`objects.py:23`). -/
def tag : Str := "py/object".toList

/-- Keys that `jsonpickle` keeps for itself (`objects.py:23,45`, `jsonpickle.tags.RESERVED`). -/
def reserved (k : Str) : Bool := "py/".toList.isPrefixOf k

/-- Bound methods are not written (`objects.py:23`, `jsonpickle.util.is_picklable`). -/
def isMethod {F : Type} : Py F → Bool
  | .method _ => true
  | .none => false
  | .bool _ => false
  | .num _ => false
  | .str _ => false
  | .list _ => false
  | .dict _ => false
  | .inst _ _ => false

mutual
/-- `json.loads(jsonpickle.encode(o))` (`objects.py:23`); the document is what `json.loads` makes of the compact text. -/
def flatten {F : Type} : Py F → J F
  | .none => .null
  | .bool b => .bool b
  | .num x => .num x
  | .str s => .str s
  | .list l => .arr (flattenItems l)
  | .dict l => .obj (flattenPairs l)
  | .inst cls l => .obj ((tag, .str cls) :: flattenPairs l)
  | .method _ => .null
/-- The items of a list. -/
def flattenItems {F : Type} : List (Py F) → List (J F)
  | [] => []
  | v :: l => flatten v :: flattenItems l
/-- The entries of a dictionary or the attributes of an instance: reserved keys and bound methods are left out (`objects.py:23`). -/
def flattenPairs {F : Type} : List (Str × Py F) → List (Str × J F)
  | [] => []
  | (k, v) :: l => if reserved k || isMethod v then flattenPairs l else (k, flatten v) :: flattenPairs l
end

/-- The class named in a dictionary (`objects.py:45`, `jsonpickle.tags.OBJECT`). -/
def tagOf {F : Type} (l : List (Str × J F)) : Option Str := match l.lookup tag with
  | some (.str c) => some c
  | _ => none

mutual
/-- `jsonpickle.decode` of a document (`objects.py:45`): a dictionary with a class name becomes an instance. -/
def restore {F : Type} : J F → Py F
  | .null => .none
  | .bool b => .bool b
  | .num x => .num x
  | .str s => .str s
  | .arr l => .list (restoreItems l)
  | .obj l => match tagOf l with
    | some cls => .inst cls (restoreAttrs l)
    | none => .dict (restorePairs l)
/-- The items of a list. -/
def restoreItems {F : Type} : List (J F) → List (Py F)
  | [] => []
  | j :: l => restore j :: restoreItems l
/-- The attributes of an instance: reserved keys are left out. -/
def restoreAttrs {F : Type} : List (Str × J F) → List (Str × Py F)
  | [] => []
  | (k, j) :: l => if reserved k then restoreAttrs l else (k, restore j) :: restoreAttrs l
/-- The entries of a dictionary. -/
def restorePairs {F : Type} : List (Str × J F) → List (Str × Py F)
  | [] => []
  | (k, j) :: l => (k, restore j) :: restorePairs l
end

/-- An attribute of an instance (`objects.py:22-46`). -/
def attr {F : Type} (k : String) : Py F → Option (Py F)
  | .inst _ l => l.lookup k.toList
  | .none => none
  | .bool _ => none
  | .num _ => none
  | .str _ => none
  | .list _ => none
  | .dict _ => none
  | .method _ => none

/-- The class of an instance (`objects.py:22-46`). -/
def cls {F : Type} : Py F → Option Str
  | .inst c _ => some c
  | .none => none
  | .bool _ => none
  | .num _ => none
  | .str _ => none
  | .list _ => none
  | .dict _ => none
  | .method _ => none

/-- `setattr` (`thermochemistry.py:195-202`). -/
def setAttr {F : Type} (k : String) (v : Py F) : Py F → Py F
  | .inst c l => .inst c (put k.toList v l)
  | .none => .none
  | .bool b => .bool b
  | .num x => .num x
  | .str s => .str s
  | .list l => .list l
  | .dict l => .dict l
  | .method m => .method m

/-- The class of compounds as `jsonpickle` writes it (`thermochemistry.py:414`). -/
def compoundClass : Str := "auxi.tools.chemistry.thermochemistry.Compound".toList
/-- The class of phases (`thermochemistry.py:144`). -/
def phaseClass : Str := "auxi.tools.chemistry.thermochemistry.Phase".toList
/-- The class of heat capacity records (`thermochemistry.py:30`). -/
def recordClass : Str := "auxi.tools.chemistry.thermochemistry.CpRecord".toList

/-- `Phase._init` (`thermochemistry.py:192-202`). -/
def initPhase {F : Type} (N : Numbers F) (o : Py F) : Res (Py F) :=
  if (attr "Tc_mag" o).isSome && (attr "beta0_mag" o).isSome && (attr "p_mag" o).isSome then
    match attr "p_mag" o with
    | some (.num p) => match N.derived p with
      | some (a, b, d) => .ok (setAttr "_D_mag" (.num d) (setAttr "_B_mag" (.num b) (setAttr "_A_mag" (.num a) o)))
      | none => .error .zeroDivisionError
    | _ => .error .typeError
  else .ok (setAttr "G_mag" (.method "Zero_mag".toList) (setAttr "S_mag" (.method "Zero_mag".toList)
    (setAttr "H_mag" (.method "Zero_mag".toList) (setAttr "Cp_mag" (.method "Zero_mag".toList) o))))

/-- `_init` of a phase of a compound (`thermochemistry.py:453-455`): a dictionary entry that is no instance has no `_init`; other classes inherit the empty one (`objects.py:34-35`). -/
def initEntry {F : Type} (N : Numbers F) (o : Py F) : Res (Py F) :=
  if cls o = some phaseClass then initPhase N o
  else if (cls o).isSome then .ok o
  else .error .attributeError

/-- The loop of `Compound._init` (`thermochemistry.py:454-455`). -/
def initPhases {F : Type} (N : Numbers F) : List (Str × Py F) → Res (List (Str × Py F))
  | [] => .ok []
  | (k, o) :: l => match initEntry N o with
    | .error e => .error e
    | .ok o' => match initPhases N l with
      | .error e => .error e
      | .ok l' => .ok ((k, o') :: l')

/-- `result._init()` (`objects.py:46`): `Compound._init` (`thermochemistry.py:453-455`), `Phase._init` (`thermochemistry.py:192-202`), or the empty one (`objects.py:34-35`). -/
def init {F : Type} (N : Numbers F) (o : Py F) : Res (Py F) :=
  if cls o = some compoundClass then match attr "_phases" o with
    | some (.dict l) => match initPhases N l with
      | .ok l' => .ok (setAttr "_phases" (.dict l') o)
      | .error e => .error e
    | some _ => .error .typeError
    | none => .error .attributeError
  else initEntry N o

/-- The text of an attribute in a readable text (`thermochemistry.py:66-76,204-218`); numbers and strings only. -/
def shown {F : Type} (N : Numbers F) : Option (Py F) → Str
  | some (.num x) => N.repr x
  | some (.str s) => s
  | _ => []

/-- The lines of the terms of a record (`thermochemistry.py:71-73`). -/
def termLines {F : Type} (N : Numbers F) : List (Py F) → List (Py F) → Str
  | .num c :: cs, e :: es => "\t\t\t".toList ++ N.fmt c ++ [' '] ++ shown N (some e) ++ ['\n'] ++ termLines N cs es
  | _, _ => []

/-- `CpRecord.__str__` (`thermochemistry.py:66-75`). -/
def recordText {F : Type} (N : Numbers F) (o : Py F) : Str :=
  "\t\tCp RECORD:\n".toList ++ "\t\t\tTmin: ".toList ++ shown N (attr "Tmin" o) ++ ['\n'] ++ "\t\t\tTmax: ".toList ++ shown N (attr "Tmax" o) ++ ['\n'] ++
    match attr "_coefficients" o, attr "_exponents" o with
    | some (.list cs), some (.list es) => termLines N cs es
    | _, _ => []

/-- `Phase.__str__` (`thermochemistry.py:204-218`). -/
def phaseText {F : Type} (N : Numbers F) (o : Py F) : Str :=
  "\tPHASE: ".toList ++ shown N (attr "name" o) ++ ['\n'] ++ "\t\tName: ".toList ++ shown N (attr "name" o) ++ ['\n'] ++
    "\t\tSymbol: ".toList ++ shown N (attr "symbol" o) ++ ['\n'] ++ "\t\tTref: ".toList ++ shown N (attr "Tref" o) ++ ['\n'] ++
    "\t\tDHref: ".toList ++ shown N (attr "DHref" o) ++ ['\n'] ++ "\t\tSref: ".toList ++ shown N (attr "Sref" o) ++ ['\n'] ++
    match attr "_Cp_records" o with
    | some (.dict l) => "\t\tCp record count:".toList ++ (toString l.length).toList ++ ['\n'] ++ l.flatMap (fun e => recordText N e.2)
    | _ => []

/-- `str(self)` (`objects.py:22-26`, `thermochemistry.py:66-76,204-218`): the classes of phases and of records have their own. -/
def text {F : Type} (N : Numbers F) (o : Py F) : Str :=
  if cls o = some recordClass then recordText N o
  else if cls o = some phaseClass then phaseText N o
  else dumps N.toFloats (flatten o)

/-- `Object.read` (`objects.py:41-47`), of the text of the file. -/
def read {F : Type} (N : Numbers F) (s : Str) : Res (Py F) := match loads N.toFloats s with
  | .error e => .error e
  | .ok j => init N (restore j)

/-! ## Directories -/

/-- `write_compound_to_auxi_file` (`thermochemistry.py:707-717`): the file is created or replaced. -/
def writeCompound {F : Type} (N : Numbers F) (dir : List (Str × Str)) (o : Py F) : Res (List (Str × Str)) := match attr "formula" o with
  | some (.str f) => .ok (put ("Compound_".toList ++ f ++ ".json".toList) (text N o) dir)
  | some _ => .error .typeError
  | none => .error .attributeError

/-- Does the name match the pattern `Compound_*.json` (`thermochemistry.py:756`)? -/
def isDataFile (name : Str) : Bool := "Compound_".toList.isPrefixOf name && ".json".toList.isSuffixOf name

/-- The loop of `load_data_auxi` (`thermochemistry.py:758-760`): the compounds after the loop, and the exception that ended it, if any. -/
def loadFiles {F : Type} (N : Numbers F) : List (Str × Str) → List (Str × Py F) → List (Str × Py F) × Option PyErr
  | [], db => (db, none)
  | (_, s) :: l, db => match read N s with
    | .error e => (db, some e)
    | .ok o => match attr "formula" o with
      | some (.str f) => loadFiles N l (put f o db)
      | some _ => (db, some .typeError)
      | none => (db, some .attributeError)

/-- `load_data_auxi` (`thermochemistry.py:742-760`): the compounds are cleared first; a directory that does not exist (`none`) gives a warning only.  The order of the files is that of the directory. -/
def loadAuxi {F : Type} (N : Numbers F) (dir : Option (List (Str × Str))) : List (Str × Py F) × Option PyErr := match dir with
  | none => ([], none)
  | some files => loadFiles N (files.filter (fun e => isDataFile e.1)) []

/-! ## What a compound object holds -/

/-- The attributes of a `CpRecord` (`thermochemistry.py:39-64`). -/
structure RecObj (F : Type) where
  /-- `Tmin` -/
  Tmin : F
  /-- `Tmax` -/
  Tmax : F
  /-- `_coefficients` -/
  coefficients : List F
  /-- `_exponents` -/
  exponents : List F

/-- The magnetic attributes of a `Phase` (`thermochemistry.py:168-197`). -/
structure MagObj (F : Type) where
  /-- `Tc_mag` -/
  Tc : F
  /-- `beta0_mag` -/
  beta0 : F
  /-- `p_mag` -/
  p : F
  /-- `_A_mag` -/
  A : F
  /-- `_B_mag` -/
  B : F
  /-- `_D_mag` -/
  D : F

/-- The attributes of a `Phase` (`thermochemistry.py:152-202`). -/
structure PhaseObj (F : Type) where
  /-- `name` -/
  name : Str
  /-- `symbol` -/
  symbol : Str
  /-- `Tref` -/
  Tref : F
  /-- `DHref` -/
  DHref : F
  /-- `Sref` -/
  Sref : F
  /-- the magnetic data that `Cp_mag`, `H_mag`, `S_mag`, `G_mag` use; `none`: they are bound to `Zero_mag` -/
  mag : Option (MagObj F)
  /-- `_Cp_records`: the number of the key, and the record -/
  records : List (F × RecObj F)

/-- The attributes of a `Compound` (`thermochemistry.py:422-442`). -/
structure CompObj (F : Type) where
  /-- `formula` -/
  formula : Str
  /-- `molar_mass` -/
  molarMass : F
  /-- `reference`; `none` is Python's `None` -/
  reference : Option Str
  /-- `_phases` -/
  phases : List (Str × PhaseObj F)

/-- A number (`thermochemistry.py:39-64`). -/
def asNum {F : Type} : Option (Py F) → Option F
  | some (.num x) => some x
  | _ => none

/-- A string (`thermochemistry.py:152-190`). -/
def asStr {F : Type} : Option (Py F) → Option Str
  | some (.str s) => some s
  | _ => none

/-- A list of numbers (`thermochemistry.py:50-64`). -/
def asNums {F : Type} : List (Py F) → Option (List F)
  | [] => some []
  | .num x :: l => (asNums l).map (x :: ·)
  | _ :: _ => none

/-- An attribute that is a list of numbers (`thermochemistry.py:50-64`). -/
def asNumList {F : Type} : Option (Py F) → Option (List F)
  | some (.list l) => asNums l
  | _ => none

/-- A record as its methods see it (`thermochemistry.py:77-141`). -/
def recView {F : Type} (o : Py F) : Option (RecObj F) :=
  match cls o, asNum (attr "Tmin" o), asNum (attr "Tmax" o), asNumList (attr "_coefficients" o), asNumList (attr "_exponents" o) with
  | some c, some a, some b, some cs, some es => if c = recordClass then some ⟨a, b, cs, es⟩ else none
  | _, _, _, _, _ => none

/-- The entries of `_Cp_records` as the methods of the phase see them (`thermochemistry.py:240-244`): `float(key)` is a number whose `str` is the key. -/
def recViews {F : Type} (N : Numbers F) : List (Str × Py F) → Option (List (F × RecObj F))
  | [] => some []
  | (k, o) :: l => match N.float k, recView o, recViews N l with
    | some x, some r, some l' => if N.repr x = k then some ((x, r) :: l') else none
    | _, _, _ => none

/-- Is the attribute bound to `Zero_mag` (`thermochemistry.py:199-202`)? -/
def isZeroMag {F : Type} : Option (Py F) → Bool
  | some (.method m) => m == "Zero_mag".toList
  | _ => false

/-- The magnetic data that the magnetic methods use (`thermochemistry.py:192-202,248-411`): the instance attribute `Zero_mag` hides the method of the class. -/
def magView {F : Type} (o : Py F) : Option (Option (MagObj F)) :=
  if isZeroMag (attr "Cp_mag" o) && isZeroMag (attr "H_mag" o) && isZeroMag (attr "S_mag" o) && isZeroMag (attr "G_mag" o) then some none
  else if (attr "Cp_mag" o).isSome || (attr "H_mag" o).isSome || (attr "S_mag" o).isSome || (attr "G_mag" o).isSome then none
  else match asNum (attr "Tc_mag" o), asNum (attr "beta0_mag" o), asNum (attr "p_mag" o), asNum (attr "_A_mag" o), asNum (attr "_B_mag" o), asNum (attr "_D_mag" o) with
    | some t, some u, some p, some a, some b, some d => some (some ⟨t, u, p, a, b, d⟩)
    | _, _, _, _, _, _ => none

/-- The dictionary in an attribute (`thermochemistry.py:183-190,428-442`). -/
def asDict {F : Type} : Option (Py F) → Option (List (Str × Py F))
  | some (.dict l) => some l
  | _ => none

/-- A phase as its methods see it (`thermochemistry.py:144-411`). -/
def phaseView {F : Type} (N : Numbers F) (o : Py F) : Option (PhaseObj F) :=
  match cls o, asStr (attr "name" o), asStr (attr "symbol" o), asNum (attr "Tref" o), asNum (attr "DHref" o), asNum (attr "Sref" o), magView o,
    (asDict (attr "_Cp_records" o)).bind (recViews N) with
  | some c, some n, some s, some t, some h, some e, some m, some l => if c = phaseClass then some ⟨n, s, t, h, e, m, l⟩ else none
  | _, _, _, _, _, _, _, _ => none

/-- The entries of `_phases` (`thermochemistry.py:439-442`). -/
def phaseViews {F : Type} (N : Numbers F) : List (Str × Py F) → Option (List (Str × PhaseObj F))
  | [] => some []
  | (k, o) :: l => match phaseView N o, phaseViews N l with
    | some p, some l' => some ((k, p) :: l')
    | _, _ => none

/-- A reference: a string or `None` (`thermochemistry.py:431-434,466-468`). -/
def asRef {F : Type} : Option (Py F) → Option (Option Str)
  | some (.str s) => some (some s)
  | some .none => some none
  | _ => none

/-- A compound as its methods see it (`thermochemistry.py:414-537`). -/
def compView {F : Type} (N : Numbers F) (o : Py F) : Option (CompObj F) :=
  match cls o, asStr (attr "formula" o), asNum (attr "molar_mass" o), asRef (attr "reference" o), (asDict (attr "_phases" o)).bind (phaseViews N) with
  | some c, some f, some m, some r, some l => if c = compoundClass then some ⟨f, m, r, l⟩ else none
  | _, _, _, _, _ => none

/-! ## The numbers as real numbers -/

/-- The record of `ThermoChem` (`thermochemistry.py:30-64`); `zip` stops with the shorter list. -/
def RecObj.record {F : Type} (val : F → ℝ) (r : RecObj F) : ThermoChem.CpRecord := ⟨val r.Tmin, val r.Tmax, (r.coefficients.zip r.exponents).map (fun t => (val t.1, val t.2))⟩

/-- The phase of `ThermoChem` (`thermochemistry.py:144-202`); the derived magnetic constants are those of `ThermoChem`. -/
def PhaseObj.phase {F : Type} (val : F → ℝ) (p : PhaseObj F) : ThermoChem.Phase :=
  ⟨val p.DHref, val p.Sref, p.records.map (fun e => (val e.1, e.2.record val)), p.mag.map (fun m => ⟨val m.Tc, val m.beta0, val m.p⟩)⟩

/-- The compound of `ThermoChem` (`thermochemistry.py:414-442`). -/
def CompObj.comp {F : Type} (val : F → ℝ) (c : CompObj F) : ThermoChem.Compound := ⟨val c.molarMass, c.phases.map (fun e => (e.1, e.2.phase val))⟩

end Auxi.Persist
