import Verif.Chem
import Verif.Slurry
import Verif.Thermo

/-!
# Model of the reading of material files (`/repo/auxi/modelling/process/materials/{chem,psd,slurry,thermo}.py`)

A file is its decoded text.  Simplifications: the file exists and can be decoded; numbers are exact rationals (no rounding, no overflow to
infinity); texts such as `inf`, `nan`, `1_000` and digits outside ASCII, which Python's `float` also accepts, are refused by the model.
-/
namespace Auxi.FileFormat

/-! ## Python's text functions -/

/-- `str.isspace` for one character: what `str.strip()` removes (`chem.py:132`, `psd.py:135`, `slurry.py:186`, `thermo.py:233`). -/
def isSpace (c : Char) : Bool :=
  let n := c.toNat
  n == 32 || (9 ≤ n && n ≤ 13) || (28 ≤ n && n ≤ 31) || n == 0x85 || n == 0xa0 || n == 0x1680 || (0x2000 ≤ n && n ≤ 0x200a) ||
    n == 0x2028 || n == 0x2029 || n == 0x202f || n == 0x205f || n == 0x3000

/-- `line.strip()` (`chem.py:132`, `psd.py:135`, `slurry.py:186`, `thermo.py:233`). -/
def strip (s : Str) : Str := ((s.dropWhile isSpace).reverse.dropWhile isSpace).reverse

/-- Universal newlines of `open(file_path)` in text mode (`chem.py:98-99`, `psd.py:72-73`, `slurry.py:81-82`, `thermo.py:91-92`). -/
def universal : Str → Str
  | [] => []
  | '\r' :: '\n' :: s => '\n' :: universal s
  | c :: s => (if c = '\r' then '\n' else c) :: universal s

/-- `f.readlines()` (`chem.py:99`, `psd.py:73`, `slurry.py:82`, `thermo.py:92`): the lines with their terminators. -/
def readlines : Str → List Str
  | [] => []
  | c :: s => if c = '\n' then [c] :: readlines s else match readlines s with
    | [] => [[c]]
    | l :: ls => (c :: l) :: ls

/-- `line.replace('\t', ' ')` (`chem.py:135`, `psd.py:137`, `slurry.py:188`, `thermo.py:236`). -/
def untab (s : Str) : Str := s.map (fun c => if c = '\t' then ' ' else c)

/-- `line.find('  ') > -1` (`chem.py:138`, `psd.py:139`, `slurry.py:190`, `thermo.py:239`). -/
def hasDouble : Str → Bool
  | c :: d :: s => if c = ' ' ∧ d = ' ' then true else hasDouble (d :: s)
  | _ => false

/-- `line.replace('  ', ' ')`: non overlapping, from the left (`chem.py:139`, `psd.py:140`, `slurry.py:191`, `thermo.py:240`). -/
def replaceDouble : Str → Str
  | c :: d :: s => if c = ' ' ∧ d = ' ' then ' ' :: replaceDouble s else c :: replaceDouble (d :: s)
  | s => s

theorem replaceDouble_length_le : ∀ s : Str, (replaceDouble s).length ≤ s.length
  | [] => by simp [replaceDouble]
  | [c] => by simp [replaceDouble]
  | c :: d :: s => by
    have h1 := replaceDouble_length_le s
    have h2 := replaceDouble_length_le (d :: s)
    rw [replaceDouble]
    split <;> simp only [List.length_cons] at * <;> omega

theorem replaceDouble_length_lt : ∀ s : Str, hasDouble s = true → (replaceDouble s).length < s.length
  | [], h => by simp [hasDouble] at h
  | [c], h => by simp [hasDouble] at h
  | c :: d :: s, h => by
    have h1 := replaceDouble_length_le s
    rw [replaceDouble]
    rw [hasDouble] at h
    split
    · simp only [List.length_cons]; omega
    · rename_i hn
      rw [if_neg hn] at h
      have h2 := replaceDouble_length_lt (d :: s) h
      simp only [List.length_cons] at *; omega

/-- The loop `while line.find('  ') > -1: line = line.replace('  ', ' ')` (`chem.py:138-139`, `psd.py:139-140`, `slurry.py:190-191`,
`thermo.py:239-240`). -/
def collapse (s : Str) : Str := if h : hasDouble s = true then collapse (replaceDouble s) else s
  termination_by s.length
  decreasing_by exact replaceDouble_length_lt s h

/-- `_prepare_lines_` / `_prepare_lines` for one line (`chem.py:123-143`, `psd.py:125-142`, `slurry.py:176-193`, `thermo.py:221-244`). -/
def prepare (s : Str) : Str := collapse (untab (strip s))

/-- `line.split(' ')` (`chem.py:103,111`, `psd.py:79,87`, `slurry.py:88,99,111,123`, `thermo.py:97,114,139`). -/
def split : Str → List Str
  | [] => [[]]
  | c :: s => if c = ' ' then [] :: split s else match split s with
    | [] => [[c]]
    | w :: ws => (c :: w) :: ws

/-- The prepared lines of a file (`chem.py:98-100`, `psd.py:72-75`, `slurry.py:81-84`, `thermo.py:91-93`). -/
def fileLines (text : Str) : List Str := (readlines (universal text)).map prepare

/-! ## Numbers -/

/-- The value of a row of decimal digits. (part of `float(...)`, `chem.py:117`) -/
def digits (s : Str) : ℕ := s.foldl (fun n c => 10 * n + (c.toNat - 48)) 0

/-- Is it an ASCII digit? (part of `float(...)`, `chem.py:117`) -/
def isDigit (c : Char) : Bool := 48 ≤ c.toNat && c.toNat ≤ 57

/-- An optional sign and the rest (part of `float(...)`, `chem.py:117`). -/
def expSign : Str → Bool × Str
  | [] => (false, [])
  | c :: t => if c = '-' then (true, t) else if c = '+' then (false, t) else (false, c :: t)

/-- Exponent part of a float text: nothing, or `e`/`E`, optional sign, digits (part of `float(...)`, `chem.py:117`). -/
def exponent : Str → Option ℤ
  | [] => some 0
  | c :: s => if c = 'e' ∨ c = 'E' then
      let d := (expSign s).2
      if d ≠ [] ∧ d.all isDigit = true then some (if (expSign s).1 then -(digits d : ℤ) else (digits d : ℤ)) else none
    else none

/-- Point and digits, if any, and the rest (part of `float(...)`, `chem.py:117`). -/
def fraction : Str → Str × Str
  | [] => ([], [])
  | c :: t => if c = '.' then (t.takeWhile isDigit, t.dropWhile isDigit) else ([], c :: t)

/-- A float text without sign (part of `float(...)`, `chem.py:117`). -/
def unsigned (s : Str) : Option ℚ :=
  let i := s.takeWhile isDigit
  let r := s.dropWhile isDigit
  let f := (fraction r).1
  if i = [] ∧ f = [] then none
  else (exponent (fraction r).2).map (fun e => (digits (i ++ f) : ℚ) * (10 : ℚ) ^ (e - (f.length : ℤ)))

/-- Python's `float(text)` (`chem.py:117`, `psd.py:91,96`, `slurry.py:108,119,128,133`, `thermo.py:126,129,146`): `ValueError` if the text is
not a number. Simplification: see the head of this file. -/
def pyFloat (s : Str) : Res ℚ :=
  let t := expSign (strip s)
  match unsigned t.2 with
  | some q => .ok (if t.1 then -q else q)
  | none => .error .valueError

/-! ## Dictionaries -/

/-- `d[k] = v` (`chem.py:107`, `psd.py:83`, `slurry.py:94-96,108,119`, `thermo.py:105-106,135,146`). -/
def setItem {α : Type} (k : Str) (v : α) : List (Str × α) → List (Str × α)
  | [] => [(k, v)]
  | (k', w) :: d => if k' = k then (k', v) :: d else (k', w) :: setItem k v d

/-- `for name in names: d[name] = v` (`chem.py:105-107`, `psd.py:81-83`, `slurry.py:90-96`, `thermo.py:99-106`). -/
def initDict {α : Type} (v : α) (names : List Str) : List (Str × α) := names.foldl (fun d n => setItem n v d) []

/-- `d[k].append(v)` / `d[k] = numpy.append(d[k], v)` (`chem.py:117`, `psd.py:95-96`, `slurry.py:132-133`, `thermo.py:124-129`): `KeyError`
if absent. -/
def appendItem (k : Str) (v : ℚ) : List (Str × List ℚ) → Res (List (Str × List ℚ))
  | [] => .error .keyError
  | (k', l) :: d => if k' = k then .ok ((k', l ++ [v]) :: d) else
    match appendItem k v d with
    | .error e => .error e
    | .ok d' => .ok ((k', l) :: d')

/-! ## The table -/

/-- `assay_names[j]`, `float(strings[j+1])` (`chem.py:116-117`): the assay and number of column `j`. -/
def cell (names strings : List Str) (j : ℕ) : Res (Str × ℚ) :=
  match names[j]? with
  | none => .error .indexError
  | some name => match strings[j + 1]? with
    | none => .error .indexError
    | some t => match pyFloat t with
      | .error e => .error e
      | .ok v => .ok (name, v)

/-- `for j in range(0, len(self.assays))`: one row of numbers (`chem.py:115-117`, `psd.py:93-96`, `slurry.py:130-133`, `thermo.py:122-129`). -/
def addRow (names strings : List Str) : List ℕ → List (Str × List ℚ) → Res (List (Str × List ℚ))
  | [], d => .ok d
  | j :: js, d => match cell names strings j with
    | .error e => .error e
    | .ok (name, v) => match appendItem name v d with
      | .error e => .error e
      | .ok d' => addRow names strings js d'

/-- The loop over the lines of the table (`chem.py:110-117`, `psd.py:86-96`, `slurry.py:122-133`, `thermo.py:110-129`).  `label` turns the first
field into a compound (`chem.py:114`, `thermo.py:119`) or size class (`psd.py:91`, `slurry.py:128`). -/
def tableRows {κ : Type} (label : Str → Res κ) (names : List Str) :
    List Str → List κ × List (Str × List ℚ) → Res (List κ × List (Str × List ℚ))
  | [], st => .ok st
  | line :: lines, (ks, d) =>
    let strings := split line
    if strings.length < names.length + 1 then tableRows label names lines (ks, d)
    else match label (strings.headD []) with
      | .error e => .error e
      | .ok k => match addRow names strings (List.range d.length) d with
        | .error e => .error e
        | .ok d' => tableRows label names lines (ks ++ [k], d')

/-- `assay_names = lines[0].split(' '); del(assay_names[0:1])` (`chem.py:103-104`, `psd.py:79-80`, `slurry.py:88-89`, `thermo.py:97-98`). -/
def assayNames (header : Str) : List Str := (split header).drop 1

/-- String comparison by code points (part of `sorted`, `chem.py:154`, `thermo.py:255`). -/
def strLe : Str → Str → Bool
  | [], _ => true
  | _ :: _, [] => false
  | a :: x, b :: y => if a.toNat = b.toNat then strLe x y else a.toNat < b.toNat

/-- `_create_element_list_` / `_create_element_list` (`chem.py:145-154`, `thermo.py:246-255`). -/
def elementList (compounds : List Str) : Res (List Str) :=
  match Stoich.elements compounds with
  | .error e => .error e
  | .ok l => .ok (l.insertionSort (fun a b => strLe a b = true))

/-! ## The four readers -/

/-- `chem.Material._read_configuration_` (`chem.py:94-121`), on the prepared lines. -/
def chemOfLines (ident : ℕ) : List Str → Res Chem.Material
  | [] => .error .indexError
  | header :: lines =>
    let names := assayNames header
    match tableRows .ok names lines ([], initDict [] names) with
    | .error e => .error e
    | .ok (compounds, assays) => match elementList compounds with
      | .error e => .error e
      | .ok els => .ok ⟨ident, compounds, assays.map (fun e => (e.1, e.2.map Chem.fl)), els⟩

/-- `chem.Material(name, file_path)` on a file with this text (`chem.py:62-65,94-121`). -/
def readChem (ident : ℕ) (text : Str) : Res Chem.Material := chemOfLines ident (fileLines text)

/-- `psd.Material.__init__` (`psd.py:66-99`), on the prepared lines. -/
def psdOfLines (ident : ℕ) : List Str → Res Psd.Material
  | [] => .error .indexError
  | header :: lines =>
    let names := assayNames header
    match tableRows pyFloat names lines ([], initDict [] names) with
    | .error e => .error e
    | .ok (classes, assays) => .ok ⟨ident, classes, assays.map (fun e => (e.1, e.2.map .fin))⟩

/-- `psd.Material(name, file_path)` on a file with this text (`psd.py:66-99`). -/
def readPsd (ident : ℕ) (text : Str) : Res Psd.Material := psdOfLines ident (fileLines text)

/-- The loops over the columns of the second and third line (`slurry.py:106-108,117-119`). -/
def setRow (names strings : List Str) : List ℕ → List (Str × ℚ) → Res (List (Str × ℚ))
  | [], d => .ok d
  | j :: js, d => match cell names strings j with
    | .error e => .error e
    | .ok (name, v) => setRow names strings js (setItem name v d)

/-- Second and third line: the first field must be `title` (`slurry.py:99-108`, `slurry.py:111-119`). -/
def titledRow (title : Str) (names : List Str) (line : Option Str) (d : List (Str × ℚ)) : Res (List (Str × ℚ)) :=
  match line with
  | none => .error .indexError
  | some l =>
    let strings := split l
    if strings.headD [] ≠ title then .error .exception
    else setRow names strings (List.range d.length) d

/-- `slurry.Material.__init__` (`slurry.py:75-136`), on the prepared lines. -/
def slurryOfLines (ident : ℕ) : List Str → Res Slurry.Material
  | [] => .error .indexError
  | header :: lines =>
    let names := assayNames header
    match titledRow "solid_density".toList names lines[0]? (initDict 1 names) with
    | .error e => .error e
    | .ok densities => match titledRow "H2O".toList names lines[1]? (initDict 0 names) with
      | .error e => .error e
      | .ok waters => match tableRows pyFloat names (lines.drop 2) ([], initDict [] names) with
        | .error e => .error e
        | .ok (classes, assays) => .ok ⟨⟨ident, classes, assays.map (fun e => (e.1, e.2.map .fin))⟩, densities, waters⟩

/-- `slurry.Material(name, file_path)` on a file with this text (`slurry.py:75-136`). -/
def readSlurry (ident : ℕ) (text : Str) : Res Slurry.Material := slurryOfLines ident (fileLines text)

/-- `lines[i].startswith("#")` (`thermo.py:111`). -/
def isHash : Str → Bool
  | '#' :: _ => true
  | _ => false

/-- `self.assay_custom_properties[assay_name][property_name] = v` (`thermo.py:144-146`): `KeyError` if the assay is absent. -/
def setCustom (assay prop : Str) (v : ℚ) : List (Str × List (Str × ℚ)) → Res (List (Str × List (Str × ℚ)))
  | [] => .error .keyError
  | (k, d) :: ds => if k = assay then .ok ((k, setItem prop v d) :: ds) else
    match setCustom assay prop v ds with
    | .error e => .error e
    | .ok ds' => .ok ((k, d) :: ds')

/-- One custom property line (`thermo.py:139-146`). -/
def customRow (names strings : List Str) : List ℕ → List Str × List (Str × List (Str × ℚ)) →
    Res (List Str × List (Str × List (Str × ℚ)))
  | [], st => .ok st
  | j :: js, (ps, ds) => match cell names strings j with
    | .error e => .error e
    | .ok (name, v) => match setCustom name (strings.headD []) v ds with
      | .error e => .error e
      | .ok ds' => customRow names strings js (ps ++ [strings.headD []], ds')

/-- The custom property lines (`thermo.py:137-146`); `n` is the number of assays. -/
def customRows (names : List Str) (n : ℕ) : List Str → List Str × List (Str × List (Str × ℚ)) →
    Res (List Str × List (Str × List (Str × ℚ)))
  | [], st => .ok st
  | line :: lines, st => match customRow names (split line) (List.range n) st with
    | .error e => .error e
    | .ok st' => customRows names n lines st'

/-- What `thermo.Material.__init__` reads, before the numbers become floats of the material (`thermo.py:79-152`). -/
structure ThermoData where
  /-- `self.compounds` -/
  compounds : List Str
  /-- `self.raw_assays`, `self.converted_assays` -/
  assays : List (Str × List ℚ)
  /-- `self.elements` -/
  elements : List Str
  /-- `self.custom_properties` -/
  customNames : List Str
  /-- `self.assay_custom_properties` -/
  custom : List (Str × List (Str × ℚ))
  deriving DecidableEq, Repr

/-- `thermo.Material.__init__` (`thermo.py:79-152`), on the prepared lines.  The loop over the table stops at the first line starting with `#`
(`thermo.py:111-113`); the lines after it are custom properties (`thermo.py:137-146`). -/
def thermoOfLines : List Str → Res ThermoData
  | [] => .error .indexError
  | header :: lines =>
    let names := assayNames header
    let dict := initDict ([] : List ℚ) names
    match tableRows .ok names (lines.takeWhile (fun l => !isHash l)) ([], dict) with
    | .error e => .error e
    | .ok (compounds, assays) =>
      let empty := initDict ([] : List (Str × ℚ)) (names.take assays.length)
      match customRows names assays.length ((lines.dropWhile (fun l => !isHash l)).drop 1) ([], empty) with
      | .error e => .error e
      | .ok (props, custom) => match elementList compounds with
        | .error e => .error e
        | .ok els => .ok ⟨compounds, assays, els, props, custom⟩

/-- The data of `thermo.Material(name, file_path)` on a file with this text (`thermo.py:79-152`). -/
def readThermoData (text : Str) : Res ThermoData := thermoOfLines (fileLines text)

/-- The material object holding the data (`thermo.py:79-152`), with real numbers as in `Verif.Thermo`. -/
noncomputable def ThermoData.material (ident : ℕ) (t : ThermoData) : Thermo.Material :=
  ⟨ident, t.compounds, t.assays.map (fun e => (e.1, e.2.map (fun q : ℚ => some (q : ℝ)))), t.elements, t.customNames,
    t.custom.map (fun e => (e.1, e.2.map (fun p : Str × ℚ => (p.1, (p.2 : ℝ)))))⟩

/-- `thermo.Material(name, file_path)` on a file with this text (`thermo.py:79-152`). -/
noncomputable def readThermo (ident : ℕ) (text : Str) : Res Thermo.Material :=
  (readThermoData text).map (ThermoData.material ident)

end Auxi.FileFormat
