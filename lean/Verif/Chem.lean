import Verif.Stoich

/-!
# Model of `/repo/auxi/modelling/process/materials/chem.py` (materials and material packages)

Reading of material files is modelled in `Verif.FileFormat`; `__str__` in `Verif.Printout`.  Floats are exact rationals, but the Python
distinction of `int` and `float` is kept because the code branches on it.
-/
namespace Auxi.Chem
open Auxi.Stoich (elementMassFractions)

/-- A Python number: an `int` or a `float` (`chem.py:326,358,500` test for `float`). -/
structure Num where
  /-- is it a `float`? -/
  isFloat : Bool
  /-- the value -/
  val : ℚ
  deriving DecidableEq, Repr

/-- A float literal. -/
def fl (x : ℚ) : Num := ⟨true, x⟩
/-- An integer literal. -/
def int (x : ℚ) : Num := ⟨false, x⟩
/-- `a + b`: a float as soon as one operand is (`chem.py:301`). -/
def Num.add (a b : Num) : Num := ⟨a.isFloat || b.isFloat, a.val + b.val⟩
/-- `a - b` (`chem.py:523`). -/
def Num.sub (a b : Num) : Num := ⟨a.isFloat || b.isFloat, a.val - b.val⟩
/-- `a * b` (`chem.py:331`). -/
def Num.mul (a b : Num) : Num := ⟨a.isFloat || b.isFloat, a.val * b.val⟩
/-- `a / b`: true division (`chem.py:232,390`). -/
def Num.div (a b : Num) : Res Num := if b.val = 0 then .error .zeroDivisionError else .ok ⟨true, a.val / b.val⟩
/-- `sum(list)`, starting at the `int` 0 (`chem.py:210,389,400`). -/
def pySum (l : List Num) : Num := l.foldl Num.add (int 0)

/-- A comprehension whose body may raise. -/
def mapRes {α β : Type} (f : α → Res β) : List α → Res (List β)
  | [] => .ok []
  | a :: l => match f a with
    | .error e => .error e
    | .ok b => match mapRes f l with
      | .error e => .error e
      | .ok r => .ok (b :: r)

/-- `chem.Material` (`chem.py:25-121`).  Objects compare by identity (`/repo/auxi/core/objects.py` defines no `__eq__`), hence `ident`.
The name and description are not used by the modelled methods.  `elements` is computed from the compounds at construction. -/
structure Material where
  /-- object identity -/
  ident : ℕ
  /-- `self.compounds` -/
  compounds : List Str
  /-- `self.assays` in insertion order -/
  assays : List (Str × List Num)
  /-- `self.elements` -/
  elements : List Str
  deriving DecidableEq, Repr

/-- `list.index`: position of the first occurrence (`chem.py:156-166`). -/
def indexOf : List Str → Str → Option ℕ
  | [], _ => none
  | c :: l, x => if c = x then some 0 else (indexOf l x).map (· + 1)

/-- `Material.get_compound_index` (`chem.py:156-166`): `ValueError` if absent. -/
def Material.index (m : Material) (c : Str) : Res ℕ :=
  match indexOf m.compounds c with
  | some i => .ok i
  | none => .error .valueError

/-- What a caller can pass as an assay: a list or something else. -/
inductive AssayArg
  /-- a Python list -/
  | list (l : List Num)
  /-- any other object -/
  | other

/-- `Material.add_assay` (`chem.py:178-199`): outcome and material afterwards. -/
def Material.addAssay (m : Material) (name : Str) (a : AssayArg) : Res Unit × Material :=
  match a with
  | .other => (.error .exception, m)
  | .list l =>
    if l.length ≠ m.compounds.length then (.error .exception, m)
    else if name ∈ m.assays.map (·.1) then (.error .exception, m)
    else (.ok (), { m with assays := m.assays ++ [(name, l)] })

/-- `chem.MaterialPackage` (`chem.py:236-248`). -/
structure Package where
  /-- `self.material` -/
  mat : Material
  /-- `self.compound_masses` -/
  masses : List Num
  deriving DecidableEq, Repr

/-- `self.assays[name]` (`chem.py:210,232`). -/
def Material.assay (m : Material) (name : Str) : Res (List Num) :=
  match m.assays.lookup name with
  | some l => .ok l
  | none => .error .keyError

/-- `Material.get_assay_total` (`chem.py:201-210`). -/
def Material.assayTotal (m : Material) (name : Str) : Res Num := (m.assay name).map pySum

/-- `Material.create_package` (`chem.py:168-176,212-233`). -/
def Material.createPackage (m : Material) (assay : Option Str) (mass : Num) (normalise : Bool) : Res Package :=
  match assay with
  | none => .ok ⟨m, List.replicate m.compounds.length (int 0)⟩
  | some name =>
    let total : Res Num := if normalise then m.assayTotal name else .ok (fl 1)
    match total with
    | .error e => .error e
    | .ok t => match m.assay name with
      | .error e => .error e
      | .ok l => match mapRes (fun x => (mass.mul x).div t) l with
        | .error e => .error e
        | .ok ms => .ok ⟨m, ms⟩

/-- `MaterialPackage.get_mass` (`chem.py:393-400`). -/
def Package.mass (p : Package) : Num := pySum p.masses

/-- `MaterialPackage.get_compound_mass` (`chem.py:402-411`). -/
def Package.compoundMass (p : Package) (c : Str) : Res Num :=
  match p.mat.index c with
  | .error e => .error e
  | .ok i => match p.masses[i]? with
    | some x => .ok x
    | none => .error .indexError

/-- `MaterialPackage.get_compound_mass_fraction` (`chem.py:414-423`). -/
def Package.compoundFraction (p : Package) (c : Str) : Res Num :=
  match p.compoundMass c with
  | .error e => .error e
  | .ok x => x.div p.mass

/-- `MaterialPackage.get_assay` (`chem.py:383-391`). -/
def Package.assay (p : Package) : Res (List Num) := mapRes (fun x => x.div (pySum p.masses)) p.masses

/-- The accumulation loop of `get_element_masses` and `get_element_mass` (`chem.py:434-440,468-474`); element fractions from
`Stoich.elementMassFractions`. -/
def Package.elementLoop (p : Package) (elts : List Str) : List Str → List Num → Res (List Num)
  | [], acc => .ok acc
  | c :: cs, acc => match p.compoundMass c with
    | .error e => .error e
    | .ok x => match elementMassFractions c elts with
      | .error e => .error e
      | .ok fs => p.elementLoop elts cs (List.zipWith (fun v f => v.add (x.mul (fl f))) acc fs)

/-- `MaterialPackage.get_element_masses` (`chem.py:425-440`). -/
def Package.elementMasses (p : Package) : Res (List Num) :=
  p.elementLoop p.mat.elements p.mat.compounds (List.replicate p.mat.elements.length (int 0))

/-- `MaterialPackage.get_element_mass` (`chem.py:459-474`). -/
def Package.elementMass (p : Package) (e : Str) : Res Num :=
  match p.elementLoop [e] p.mat.compounds [int 0] with
  | .error x => .error x
  | .ok l => match l with
    | a :: _ => .ok a
    | [] => .error .indexError

/-- Arguments of `+`, `add_to` and `extract`. -/
inductive Arg
  /-- another package -/
  | pkg (q : Package)
  /-- a tuple of a string and a number -/
  | tup (c : Str) (x : Num)
  /-- a number -/
  | num (x : Num)
  /-- a string -/
  | str (c : Str)
  /-- anything else -/
  | other

/-- `result.compound_masses[index] += mass` after `get_compound_index` (`chem.py:293-303,574-580`).  Only `float` masses are accepted
(`_is_compound_mass_tuple`, `chem.py:346-361`). -/
def Package.addTuple (p : Package) (c : Str) (x : Num) : Res Package :=
  if x.isFloat then
    match p.mat.index c with
    | .error e => .error e
    | .ok i => match p.masses[i]? with
      | none => .error .indexError
      | some y => .ok { p with masses := p.masses.set i (y.add x) }
  else .error .typeError

/-- The loop of `add_to` over the compounds of another material (`chem.py:560-571`): outcome and receiver afterwards, which keeps what was
added before an error. -/
def Package.addLoop (q : Package) : List Str → Package → Res Unit × Package
  | [], p => (.ok (), p)
  | c :: cs, p =>
    if c ∉ p.mat.compounds then (.error .exception, p)
    else match q.compoundMass c with
      | .error e => (.error e, p)
      | .ok x => match p.addTuple c x with
        | .error e => (.error e, p)
        | .ok p' => q.addLoop cs p'

/-- `MaterialPackage.__add__` (`chem.py:261-308`).  Note that for packages of the same material the code adds two Python *lists*, which
concatenates them. -/
def Package.add (p : Package) (a : Arg) : Res Package :=
  match a with
  | .pkg q =>
    if p.mat.ident = q.mat.ident then .ok ⟨p.mat, p.masses ++ q.masses⟩
    else match q.addLoop q.mat.compounds p with
      | (.error e, _) => .error e
      | (.ok _, p') => .ok p'
  | .tup c x => p.addTuple c x
  | _ => .error .typeError

/-- `MaterialPackage.add_to` (`chem.py:544-584`): outcome and receiver afterwards. -/
def Package.addTo (p : Package) (a : Arg) : Res Unit × Package :=
  match a with
  | .pkg q =>
    if p.mat.ident = q.mat.ident then (.ok (), ⟨p.mat, p.masses ++ q.masses⟩)
    else q.addLoop q.mat.compounds p
  | .tup c x => match p.addTuple c x with
    | .error e => (.error e, p)
    | .ok p' => (.ok (), p')
  | _ => (.error .typeError, p)

/-- `MaterialPackage.__mul__` (`chem.py:311-336`). -/
def Package.mul (p : Package) (k : Num) : Res Package :=
  if k.isFloat then
    if k.val < 0 then .error .exception else .ok ⟨p.mat, p.masses.map (·.mul k)⟩
  else .error .typeError

/-- `MaterialPackage.clear` (`chem.py:376-381`): multiplies a list by a float, a `TypeError` whatever the list. -/
def Package.clear (p : Package) : Res Unit × Package := (.error .typeError, p)

/-- `MaterialPackage.extract` (`chem.py:476-541`): the extracted package or the error, and the package afterwards. -/
def Package.extract (p : Package) (a : Arg) : Res Package × Package :=
  match a with
  | .num x =>
    if x.isFloat then
      if x.val > p.mass.val then (.error .exception, p)
      else match x.div p.mass with
        | .error e => (.error e, p)
        | .ok f => (.ok ⟨p.mat, p.masses.map (·.mul f)⟩, ⟨p.mat, p.masses.map (·.mul ((fl 1).sub f))⟩)
    else (.error .typeError, p)
  | .tup c x =>
    if x.isFloat then
      match p.mat.index c with
      | .error e => (.error e, p)
      | .ok i => match p.masses[i]? with
        | none => (.error .indexError, p)
        | some y =>
          if x.val > y.val then (.error .exception, p)
          else (.ok ⟨p.mat, (List.replicate p.masses.length (fl 0)).set i x⟩, { p with masses := p.masses.set i (y.sub x) })
    else (.error .typeError, p)
  | .str c =>
    match p.mat.index c with
    | .error e => (.error e, p)
    | .ok i => match p.masses[i]? with
      | none => (.error .indexError, p)
      | some y => (.ok ⟨p.mat, (p.masses.map (·.mul (fl 0))).set i y⟩, { p with masses := p.masses.set i (fl 0) })
  | _ => (.error .typeError, p)

end Auxi.Chem
