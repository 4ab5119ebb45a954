import Verif.FileFormat
import Verif.ThermoAmounts

/-!
# Model of the printouts: `__str__` of materials, packages and streams

`/repo/auxi/modelling/process/materials/{chem,psd,slurry,thermo}.py`.  How Python writes a number is a parameter: `str(x)` in `chem`, `psd` and `slurry`, `'{:.8e}'.format(x)` in
`thermo`.  The name of a material is a string (simplification: anything else raises `TypeError`).
-/
namespace Auxi.Printout
open Auxi.FileFormat (strLe)
open Auxi.Chem (Num)
open Auxi.Psd (F64)
open Auxi.Thermo (V vadd vdiv vgt vsum)
open Classical

/-- `s.ljust(n)` (`chem.py:72,252`, `psd.py:109,251`, `slurry.py:146,342`, `thermo.py:163,422`). -/
def ljust (n : ℕ) (s : Str) : Str := s ++ List.replicate (n - s.length) ' '
/-- `s.rjust(n)` (`thermo.py:185,197,423,1124`). -/
def rjust (n : ℕ) (s : Str) : Str := List.replicate (n - s.length) ' ' ++ s
/-- A literal of the code. -/
def txt (s : String) : Str := s.toList
/-- `'\n'` -/
def nl : Str := ['\n']
/-- `sorted(...)` of strings (`chem.py:73`, `psd.py:110`, `slurry.py:147`, `thermo.py:170,178`). -/
def sorted (l : List Str) : List Str := l.insertionSort (fun a b => strLe a b = true)

/-- `for x in l: result += f(x)` (`chem.py:255-258`, `thermo.py:445-455`). -/
def cat {α : Type} (f : α → Res Str) : List α → Res Str
  | [] => .ok []
  | x :: l => match f x with
    | .error e => .error e
    | .ok s => match cat f l with
      | .error e => .error e
      | .ok t => .ok (s ++ t)

/-- `l[i]` for an index from `get_compound_index` (`chem.py:257`, `psd.py:255`, `thermo.py:185`). -/
def item {α : Type} (l : List α) (i : ℕ) : Res α := match l[i]? with
  | none => .error .indexError
  | some x => .ok x

/-- `d[k]` (`chem.py:83`, `psd.py:121`, `slurry.py:153,160,172`, `thermo.py:185,206,211`). -/
def dict {α : Type} (d : List (Str × α)) (k : Str) : Res α := match d.lookup k with
  | none => .error .keyError
  | some x => .ok x

/-! ## Packages of `chem`, `psd` and `slurry` -/

/-- The lines of the component masses: `for k in keys: index = get_index(k); result += text(k).ljust(w) + str(masses[index]) + '\n'` (`chem.py:255-258`, `psd.py:254-257`,
`slurry.py:355-358`). -/
def massLines {κ α : Type} (w : ℕ) (key : κ → Str) (num : α → Str) (index : κ → Res ℕ) (masses : List α) (keys : List κ) : Res Str :=
  cat (fun k => match index k with
    | .error e => .error e
    | .ok i => match item masses i with
      | .error e => .error e
      | .ok x => .ok (ljust w (key k) ++ num x ++ nl)) keys

/-- `chem.MaterialPackage.__str__` (`chem.py:250-259`). -/
def chemPackage (num : Num → Str) (name : Str) (p : Chem.Package) : Res Str :=
  match massLines 20 id num p.mat.index p.masses p.mat.compounds with
  | .error e => .error e
  | .ok t => .ok (txt "MaterialPackage\n" ++ ljust 20 (txt "material") ++ name ++ nl ++ ljust 20 (txt "mass") ++ num p.mass ++ nl ++ txt "Component masses:\n" ++ t)

/-- `psd.MaterialPackage.__str__` (`psd.py:245-258`). -/
def psdPackage (key : ℚ → Str) (num : F64 → Str) (name : Str) (p : Psd.Package) : Res Str :=
  match massLines 20 key num p.mat.index p.masses p.mat.classes with
  | .error e => .error e
  | .ok t => .ok (txt "MaterialPackage\n" ++ ljust 20 (txt "material") ++ name ++ nl ++ ljust 20 (txt "mass") ++ num p.mass ++ nl ++ txt "Component masses:\n" ++ t)

/-- A line of a number (`slurry.py:343-353`). -/
def figure (num : F64 → Str) (label : String) (x : F64) : Str := ljust 24 (txt label) ++ num x ++ nl

/-- `slurry.MaterialPackage.__str__` (`slurry.py:336-359`). -/
def slurryPackage (key : ℚ → Str) (num : F64 → Str) (name : Str) (p : Slurry.Package) : Res Str :=
  match massLines 24 key num p.mat.psd.index p.masses p.mat.psd.classes with
  | .error e => .error e
  | .ok t => .ok (txt "MaterialPackage\n" ++ ljust 24 (txt "material") ++ name ++ nl ++ figure num "mass fraction solids" p.massFractionSolids ++
      figure num "volume fraction solids" p.volumeFractionSolids ++ figure num "solid density" p.density ++ figure num "slurry density" p.slurryDensity ++ figure num "mass" p.mass ++
      figure num "H2O mass" p.water ++ figure num "volume" p.volume ++ txt "Component masses:\n" ++ t)

/-! ## Materials of `chem`, `psd` and `slurry` -/

/-- One line of cells, each from a dictionary of the assays (`slurry.py:150-154,157-161`). -/
def dictLine {α : Type} (num : α → Str) (label : Str) (d : List (Str × α)) (names : List Str) : Res Str :=
  match cat (fun n => match dict d n with
    | .error e => .error e
    | .ok x => .ok (ljust 20 (num x))) names with
  | .error e => .error e
  | .ok t => .ok (ljust 20 label ++ t ++ nl)

/-- The header line (`chem.py:72-76`, `psd.py:109-113`, `slurry.py:146-150`). -/
def headLine (names : List Str) : Str := ljust 20 (txt "Compound") ++ (names.map (ljust 20)).flatten ++ nl

/-- The content lines (`chem.py:79-84`, `psd.py:116-122`, `slurry.py:167-173`). -/
def tableLines {κ α : Type} (key : κ → Str) (num : α → Str) (index : κ → Res ℕ) (assays : List (Str × List α)) (names : List Str) (keys : List κ) : Res Str :=
  cat (fun k => match index k with
    | .error e => .error e
    | .ok i => match cat (fun n => match dict assays n with
        | .error e => .error e
        | .ok l => match item l i with
          | .error e => .error e
          | .ok x => .ok (ljust 20 (num x))) names with
      | .error e => .error e
      | .ok t => .ok (ljust 20 (key k) ++ t ++ nl)) keys

/-- The first line (`chem.py:69`, `psd.py:106`, `slurry.py:143`). -/
def nameLine (name : Str) : Str := txt "Material: name='" ++ name ++ txt "'\n"

/-- `chem.Material.__str__` (`chem.py:67-85`). -/
def chemMaterial (num : Num → Str) (name : Str) (m : Chem.Material) : Res Str :=
  let names := sorted (m.assays.map (·.1))
  match tableLines id num m.index m.assays names m.compounds with
  | .error e => .error e
  | .ok t => .ok (nameLine name ++ headLine names ++ t)

/-- `psd.Material.__str__` (`psd.py:101-123`). -/
def psdMaterial (key : ℚ → Str) (num : F64 → Str) (name : Str) (m : Psd.Material) : Res Str :=
  let names := sorted (m.assays.map (·.1))
  match tableLines key num m.index m.assays names m.classes with
  | .error e => .error e
  | .ok t => .ok (nameLine name ++ headLine names ++ t)

/-- `slurry.Material.__str__` (`slurry.py:138-174`). -/
def slurryMaterial (key : ℚ → Str) (num : F64 → Str) (name : Str) (m : Slurry.Material) : Res Str :=
  let names := sorted (m.psd.assays.map (·.1))
  match dictLine key (txt "Solid density") m.densities names with
  | .error e => .error e
  | .ok d => match dictLine key (txt "H2O fraction") m.waters names with
    | .error e => .error e
    | .ok w => match tableLines key num m.psd.index m.psd.assays names m.psd.classes with
      | .error e => .error e
      | .ok t => .ok (nameLine name ++ headLine names ++ d ++ w ++ t)

/-! ## Materials, packages and streams of `thermo` -/

/-- `pad = ''; for x in l: result += pad + x; pad = '  '` (`thermo.py:171-174,181-186`). -/
def padded : Str → List Str → Str
  | _, [] => []
  | pad, x :: l => pad ++ x ++ padded (txt "  ") l

/-- The loop over the assays of a line of a thermo material (`thermo.py:181-186,191-198,208-213`). -/
def padLine (label : Str) (f : Str → Res Str) (names : List Str) : Res Str := match Chem.mapRes f names with
  | .error e => .error e
  | .ok l => .ok (ljust 20 label ++ padded [] l ++ nl)

/-- `n` characters and a line end (`thermo.py:159-164,417-418`). -/
def bar (c : Char) (n : ℕ) : Str := List.replicate n c ++ nl

/-- `line_length` (`thermo.py:155-158`). -/
def lineLength (name : Str) (m : Thermo.Material) : ℕ := if m.assays.length > 0 then 20 + (3 + 14) * m.assays.length - 2 else 20 + name.length

/-- The cell of a compound and an assay (`thermo.py:180,183-185`). -/
noncomputable def thermoCell (m : Thermo.Material) (c n : Str) : Res V := match m.index c with
  | .error e => .error e
  | .ok i => match dict m.assays n with
    | .error e => .error e
    | .ok l => item l i

/-- The total of an assay (`thermo.py:193-196`). -/
noncomputable def thermoTotal (m : Thermo.Material) (n : Str) : List Str → V → Res V
  | [], acc => .ok acc
  | c :: cs, acc => match thermoCell m c n with
    | .error e => .error e
    | .ok x => thermoTotal m n cs (vadd acc x)

/-- A formatted cell of a result (`thermo.py:184-185,197,210-212`). -/
def cell (sci : V → Str) : Res V → Res Str
  | .error e => .error e
  | .ok x => .ok (rjust 15 (sci x))

/-- The custom properties of a thermo material (`thermo.py:201-214`): those of the alphabetically first assay, for every assay. -/
noncomputable def thermoCustom (sci : V → Str) (n : ℕ) (m : Thermo.Material) (names : List Str) : Res Str :=
  if m.customNames.length > 0 then
    match item (sorted (m.custom.map (·.1))) 0 with
    | .error e => .error e
    | .ok first => match dict m.custom first with
      | .error e => .error e
      | .ok d => match cat (fun prop => padLine prop (fun a => match dict m.custom a with
          | .error e => .error e
          | .ok d => match dict d prop with
            | .error e => .error e
            | .ok x => .ok (rjust 15 (sci (some x)))) names) (sorted (d.map (·.1))) with
        | .error e => .error e
        | .ok t => .ok (bar '-' n ++ txt "Custom Properties:\n" ++ bar '-' n ++ t)
  else .ok []

/-- `thermo.Material.__str__` (`thermo.py:154-219`). -/
noncomputable def thermoMaterial (sci : V → Str) (name : Str) (m : Thermo.Material) : Res Str :=
  let n := lineLength name m
  let names := sorted (m.assays.map (·.1))
  match cat (fun c => padLine c (fun a => cell sci (thermoCell m c a)) names) (sorted m.compounds) with
  | .error e => .error e
  | .ok rows => match padLine (txt "Total") (fun a => cell sci (thermoTotal m a (sorted m.compounds) (some 0))) names with
    | .error e => .error e
    | .ok total => match thermoCustom sci n m names with
      | .error e => .error e
      | .ok custom => .ok (bar '=' n ++ txt "Material\n" ++ bar '=' n ++ ljust 20 (txt "Name") ++ name ++ nl ++ bar '-' n ++
          (if m.assays.length > 0 then txt "Composition Details (mass fractions)\n" else []) ++ ljust 20 (txt "Compound") ++
          padded [] (names.map fun a => ljust 15 (a.take 15)) ++ nl ++ bar '-' n ++ rows ++ total ++ custom ++ bar '=' n)

/-- A line with a number and a unit (`thermo.py:423-432,1124-1135`). -/
def unitLine (sci : V → Str) (label : String) (x : V) (unit : String) : Str := ljust 20 (txt label) ++ rjust 15 (sci x) ++ txt unit ++ nl

/-- The lines of the compounds of a package or stream (`thermo.py:441-461,1145-1163`): masses, mass fractions, mole fractions; zeros unless the total is positive. -/
noncomputable def compoundLines (sci : V → Str) (m : Thermo.Material) (masses amounts : List V) : Res Str :=
  let mass := vsum masses
  let total := vsum amounts
  cat (fun c => match m.index c with
    | .error e => .error e
    | .ok i =>
      if vgt mass (some 0) then match item masses i with
        | .error e => .error e
        | .ok x => match item amounts i with
          | .error e => .error e
          | .ok y => .ok (ljust 20 c ++ sci x ++ txt "  " ++ sci (vdiv x mass) ++ txt "  " ++ sci (vdiv y total) ++ nl)
      else .ok (ljust 20 c ++ sci (some 0) ++ txt "  " ++ sci (some 0) ++ txt "  " ++ sci (some 0) ++ nl)) m.compounds

/-- The custom properties of a package or stream (`thermo.py:463-470,1166-1173`). -/
def customLines (sci : V → Str) (d : List (Str × V)) : Res Str :=
  if d.length > 0 then match cat (fun k => match dict d k with
      | .error e => .error e
      | .ok x => .ok (ljust 20 k ++ sci x ++ nl)) (sorted (d.map (·.1))) with
    | .error e => .error e
    | .ok t => .ok (bar '-' 67 ++ txt "Custom Properties:\n" ++ bar '-' 67 ++ t)
  else .ok []

/-- The heading of the table of compounds (`thermo.py:433-438,1138-1143`). -/
def compoundHead : Str := bar '-' 67 ++ txt "Compound Details\n" ++ ljust 20 (txt "Formula") ++ ljust 16 (txt "Mass") ++ ljust 16 (txt "Mass Fraction") ++
  ljust 16 (txt "Mole Fraction") ++ nl ++ bar '-' 67

/-- `thermo.MaterialPackage.__str__` (`thermo.py:415-471`); `custom` is the dictionary `custom_properties`. -/
noncomputable def thermoPackage (sci : V → Str) (name : Str) (p : Thermo.Package) (custom : List (Str × V)) : Res Str :=
  match p.amount with
  | .error e => .error e
  | .ok amount => match p.compoundAmounts with
    | .error e => .error e
    | .ok amounts => match compoundLines sci p.mat p.masses amounts with
      | .error e => .error e
      | .ok rows => match customLines sci custom with
        | .error e => .error e
        | .ok props => .ok (bar '=' 67 ++ txt "MaterialPackage\n" ++ bar '=' 67 ++ ljust 20 (txt "Material") ++ name ++ nl ++ unitLine sci "Mass" (vsum p.masses) " kg" ++
            unitLine sci "Amount" amount " kmol" ++ unitLine sci "Pressure" p.P " atm" ++ unitLine sci "Temperature" p.T " °C" ++ unitLine sci "Enthalpy" p.H " kWh" ++
            compoundHead ++ rows ++ props ++ bar '=' 67)

/-- The line of the heating value (`thermo.py:1136-1137`): only of coal; formatting `None` raises `TypeError`. -/
def hhvLine (sci : V → Str) (s : Thermo.Stream) : Res Str :=
  if s.isCoal then match s.HHV with
    | none => .error .typeError
    | some x => .ok (unitLine sci "HHV" x " MJ/kg")
  else .ok []

/-- `thermo.MaterialStream.__str__` (`thermo.py:1116-1174`). -/
noncomputable def thermoStream (sci : V → Str) (name : Str) (s : Thermo.Stream) (custom : List (Str × V)) : Res Str :=
  match s.afr with
  | .error e => .error e
  | .ok afr => match hhvLine sci s with
    | .error e => .error e
    | .ok hhv => match s.compoundAfrs with
      | .error e => .error e
      | .ok afrs => match compoundLines sci s.mat s.mfrs afrs with
        | .error e => .error e
        | .ok rows => match customLines sci custom with
          | .error e => .error e
          | .ok props => .ok (bar '=' 67 ++ txt "MaterialStream\n" ++ bar '=' 67 ++ ljust 20 (txt "Material") ++ name ++ nl ++
              unitLine sci "Mass Flow Rate" s.mfr " kg/h" ++ unitLine sci "Amount Flow Rate" afr " kmol/h" ++ unitLine sci "Pressure" s.P " atm" ++
              unitLine sci "Temperature" s.T " °C" ++ unitLine sci "Enthalpy Flow Rate" s.Hfr " kWh/h" ++ hhv ++ compoundHead ++ rows ++ props ++ bar '=' 67)

end Auxi.Printout
