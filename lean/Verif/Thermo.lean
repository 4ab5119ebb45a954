import Verif.ThermoChem
import Verif.Chem

/-!
# Model of `/repo/auxi/modelling/process/materials/thermo.py`: materials and material packages

Numbers are reals, extended by one value for "not finite": numpy does not raise on a division by zero but yields an infinity or `nan`, and the
methods modelled here cannot tell these apart when their arguments are finite.  Simplifications: no rounding; temperatures at which an enthalpy is
evaluated are above absolute zero (see `Verif.ThermoChem`); `copy` shares the dictionary `custom_properties`, which only `__str__` reads (`Verif.Printout`);
the unused method `_calculate_H_coal` (654-704) is not modelled; reading of material files is modelled in `Verif.FileFormat`.
-/
namespace Auxi.Thermo
open Auxi.Chem (indexOf)
open Classical

/-- A `float` / `numpy.float64` (`thermo.py:406,716,1025`): a real number, or `none` for an infinity or `nan`. -/
abbrev V := Option ℝ

/-- `a + b` (`thermo.py:500,530`). -/
noncomputable def vadd : V → V → V
  | some a, some b => some (a + b)
  | _, _ => none
/-- `a - b` (`thermo.py:721,728`). -/
noncomputable def vsub : V → V → V
  | some a, some b => some (a - b)
  | _, _ => none
/-- `a * b` (`thermo.py:344,572,728`). -/
noncomputable def vmul : V → V → V
  | some a, some b => some (a * b)
  | _, _ => none
/-- `a / b` in numpy: not finite if the divisor is zero (`thermo.py:345,728,1025`). -/
noncomputable def vdiv : V → V → V
  | some a, some b => if b = 0 then none else some (a / b)
  | _, _ => none
/-- `a > b` (`thermo.py:406,1022,1057`): false for values that are not finite. -/
def vgt : V → V → Prop
  | some a, some b => a > b
  | _, _ => False
/-- `abs(y) < 1.0e-5` (`thermo.py:730`). -/
def small : V → Prop
  | some y => |y| < 1 / 100000
  | none => False

/-- `ndarray.sum()`, `sum(ndarray)` (`thermo.py:319,873,883`). -/
noncomputable def vsum (l : List V) : V := l.foldl vadd (some 0)

/-- `a + b` of one dimensional arrays, with broadcasting (`thermo.py:499-500`). -/
noncomputable def arrAdd (a b : List V) : Res (List V) :=
  if a.length = b.length then .ok (List.zipWith vadd a b)
  else match a, b with
    | [x], _ => .ok (b.map (vadd x))
    | _, [y] => .ok (a.map (fun x => vadd x y))
    | _, _ => .error .valueError

/-- The module's dictionary of compounds (`thermochemistry.py:880-883`). -/
abbrev Db := List (Str × ThermoChem.Compound)

/-- `thermo.H(compound, T, mass)` (`thermochemistry.py:819-837`) for numbers that need not be finite; whether it raises does not depend on them. -/
noncomputable def thermoH (db : Db) (c : Str) (T m : V) : Res V :=
  match ThermoChem.H db c (T.getD 25) (m.getD 0) with
  | .error e => .error e
  | .ok h => .ok (match T, m with
    | some _, some _ => some h
    | _, _ => none)

/-- `thermo.Material` (`thermo.py:28-152`).  Objects compare by identity (`/repo/auxi/core/objects.py` defines no `__eq__`), hence `ident`.
`raw_assays` and `converted_assays` always hold the same arrays and are one field here. -/
structure Material where
  /-- object identity -/
  ident : ℕ
  /-- `self.compounds` -/
  compounds : List Str
  /-- `self.raw_assays`, `self.converted_assays` -/
  assays : List (Str × List V)
  /-- `self.elements` -/
  elements : List Str
  /-- `self.custom_properties` -/
  customNames : List Str
  /-- `self.assay_custom_properties` -/
  custom : List (Str × List (Str × ℝ))

/-- `Material.get_compound_index` (`thermo.py:266-275`). -/
def Material.index (m : Material) (c : Str) : Res ℕ :=
  match indexOf m.compounds c with
  | some i => .ok i
  | none => .error .valueError

/-- What a caller can pass as an assay: a one dimensional array or something else. -/
inductive AssayArg
  /-- a numpy array -/
  | array (l : List V)
  /-- any other object -/
  | other

/-- `Material.add_assay` (`thermo.py:289-308`): outcome and material afterwards. -/
noncomputable def Material.addAssay (m : Material) (name : Str) (a : AssayArg) : Res Unit × Material :=
  match a with
  | .other => (.error .exception, m)
  | .array l =>
    if l.length ≠ m.compounds.length then (.error .exception, m)
    else if name ∈ m.assays.map (·.1) then (.error .exception, m)
    else (.ok (), { m with assays := m.assays ++ [(name, l)] })

/-- `Material._isCoal` (`thermo.py:257-261`). -/
noncomputable def Material.isCoal (m : Material) (assay : Str) : Res Bool :=
  if "IsCoal".toList ∈ m.customNames then
    match m.custom.lookup assay with
    | none => .error .keyError
    | some d => .ok (decide ((d.lookup "IsCoal".toList).getD 0 = 1))
  else .ok false

/-- `Material._get_HHV` (`thermo.py:263-264`). -/
noncomputable def Material.hhv (m : Material) (assay : Str) : Res (Option V) :=
  match m.custom.lookup assay with
  | none => .error .keyError
  | some d => .ok ((d.lookup "HHV[MJ/kg]".toList).map some)

/-- `MaterialPackage` (`thermo.py:376-413`). -/
structure Package where
  /-- `self.material` -/
  mat : Material
  /-- `self._compound_masses` -/
  masses : List V
  /-- `self._P` -/
  P : V
  /-- `self._T` -/
  T : V
  /-- `self._H` -/
  H : V
  /-- `self.isCoal` -/
  isCoal : Bool
  /-- `self.HHV` -/
  HHV : Option V

/-- The entry of an array at the index of a compound (`thermo.py:594-595,894-897`). -/
def entry (m : Material) (a : List V) (c : Str) : Res V :=
  match m.index c with
  | .error e => .error e
  | .ok i => match a[i]? with
    | some x => .ok x
    | none => .error .indexError

/-- The loop of `_calculate_H` (`thermo.py:592-599`) and of `_calculate_Hfr` (`thermo.py:1310-1315`). -/
noncomputable def hLoop (db : Db) (m : Material) (a : List V) (T : V) : List Str → V → Res V
  | [], acc => .ok acc
  | c :: cs, acc => match entry m a c with
    | .error e => .error e
    | .ok x => match thermoH db c T x with
      | .error e => .error e
      | .ok dh => hLoop db m a T cs (vadd acc dh)

/-- `MaterialPackage._calculate_H` (`thermo.py:582-599`).  For coal it calls a method that only streams have. -/
noncomputable def calcH (db : Db) (p : Package) (T : V) : Res V :=
  if p.isCoal then .error .attributeError else hLoop db p.mat p.masses T p.mat.compounds (some 0)

/-- `MaterialPackage.mass` (`thermo.py:876-883`). -/
noncomputable def Package.mass (p : Package) : V := vsum p.masses

/-- `MaterialPackage.__init__` (`thermo.py:389-413`).  For coal of positive mass the code first computes the enthalpy of formation, which may
raise; if it does not, `_calculate_H` raises; the model reports the latter. -/
noncomputable def newPackage (db : Db) (m : Material) (masses : List V) (P T : V) (isCoal : Bool) (HHV : Option V) : Res Package :=
  let p : Package := ⟨m, masses, P, T, some 0, isCoal, HHV⟩
  if vgt p.mass (some 0) then
    match calcH db p T with
    | .error e => .error e
    | .ok h => .ok { p with H := h }
  else .ok p

/-- `self.converted_assays[name]` (`thermo.py:319,344`). -/
def Material.assay (m : Material) (name : Str) : Res (List V) :=
  match m.assays.lookup name with
  | some l => .ok l
  | none => .error .keyError

/-- `Material.get_assay_total` (`thermo.py:310-319`). -/
noncomputable def Material.assayTotal (m : Material) (name : Str) : Res V := (m.assay name).map vsum

/-- `Material.create_empty_assay` (`thermo.py:277-287`). -/
noncomputable def Material.emptyAssay (m : Material) : List V := List.replicate m.compounds.length (some 0)

/-- The array for a package or stream of an assay (`thermo.py:339-345,366-372`). -/
noncomputable def Material.scaled (m : Material) (name : Str) (mass : V) (normalise : Bool) : Res (List V) :=
  match (if normalise then m.assayTotal name else .ok (some 1)) with
  | .error e => .error e
  | .ok t => match m.assay name with
    | .error e => .error e
    | .ok l => .ok (l.map (fun x => vdiv (vmul mass x) t))

/-- `Material.create_package` (`thermo.py:321-346`). -/
noncomputable def Material.createPackage (db : Db) (m : Material) (assay : Option Str) (mass P T : V) (normalise : Bool) : Res Package :=
  match assay with
  | none => newPackage db m m.emptyAssay P T false none
  | some name => match m.scaled name mass normalise with
    | .error e => .error e
    | .ok l => match m.isCoal name with
      | .error e => .error e
      | .ok b => match m.hhv name with
        | .error e => .error e
        | .ok h => newPackage db m l P T b h

/-- One secant step (`thermo.py:728`, `1448`). -/
noncomputable def secantStep (x0 y0 x1 y1 : V) : V := vsub x1 (vmul y1 (vdiv (vsub x1 x0) (vsub y1 y0)))

/-- The loop of `_calculate_T` (`thermo.py:726-733,1446-1453`), given the number of passes left.  `py` tells whether the enthalpies are Python
floats, which happens for a material without compounds; then a division by zero raises. -/
noncomputable def secantLoop (py : Bool) (f : V → Res V) (H : V) : ℕ → V → V → V → V → Res V
  | 0, _, _, x1, _ => .ok x1
  | n + 1, x0, y0, x1, y1 =>
    if py = true ∧ vsub y1 y0 = some 0 then .error .zeroDivisionError
    else
      let x2 := secantStep x0 y0 x1 y1
      match f x2 with
      | .error e => .error e
      | .ok h2 =>
        if small y1 then .ok x2 else secantLoop py f H n x1 y1 x2 (vsub h2 H)

/-- `_calculate_T` (`thermo.py:706-733`, `1425-1453`): `for i in range(2, 50)` makes at most 48 passes. -/
noncomputable def calcT (py : Bool) (f : V → Res V) (T H : V) : Res V :=
  match f T with
  | .error e => .error e
  | .ok h0 => match f (vadd T (some 10)) with
    | .error e => .error e
    | .ok h1 => secantLoop py f H 48 T (vsub h0 H) (vadd T (some 10)) (vsub h1 H)

/-- The setter of `H` (`thermo.py:793-803`): outcome and package afterwards. -/
noncomputable def Package.setH (db : Db) (p : Package) (H : V) : Res Unit × Package :=
  let p' := { p with H := H }
  match calcT p.mat.compounds.isEmpty (calcH db p') p'.T H with
  | .error e => (.error e, p')
  | .ok t => (.ok (), { p' with T := t })

/-- The setter of `T` (`thermo.py:815-825`). -/
noncomputable def Package.setT (db : Db) (p : Package) (T : V) : Res Unit × Package :=
  let p' := { p with T := T }
  match calcH db p' T with
  | .error e => (.error e, p')
  | .ok h => (.ok (), { p' with H := h })

/-- The setter of `P` (`thermo.py:835-840`). -/
def Package.setP (p : Package) (P : V) : Package := { p with P := P }

/-- A value-returning method built on a setter. -/
def finish {α : Type} : Res Unit × α → Res α
  | (.error e, _) => .error e
  | (.ok _, a) => .ok a

/-- `MaterialPackage.get_compound_mass` (`thermo.py:885-898`). -/
noncomputable def Package.compoundMass (p : Package) (c : Str) : Res V :=
  if c ∈ p.mat.compounds then entry p.mat p.masses c else .ok (some 0)

/-- Arguments of `+` and `extract`; `isFloat` tells whether a number is a `float`, `numpy.float64` or `numpy.float32`. -/
inductive Arg (α : Type)
  /-- another package (stream) -/
  | pkg (q : α)
  /-- a tuple of a string and a number -/
  | tup (c : Str) (isFloat : Bool) (x : V)
  /-- a tuple of a string and two numbers; the last is not checked (`thermo.py:775-781`) -/
  | tup3 (c : Str) (isFloat : Bool) (x T : V)
  /-- a number -/
  | num (isFloat : Bool) (x : V)
  /-- a string -/
  | str (c : Str)
  /-- a material -/
  | mat (m : Material)
  /-- anything else -/
  | other

/-- Adding to one entry of an array (`thermo.py:527-529,547-548`). -/
noncomputable def bumpAt (a : List V) (i : ℕ) (x : V) : Res (List V) :=
  match a[i]? with
  | none => .error .indexError
  | some y => .ok (a.set i (vadd y x))

/-- `+ (compound, mass)` (`thermo.py:518-533`). -/
noncomputable def Package.addTuple (db : Db) (p : Package) (c : Str) (x : V) : Res Package :=
  match p.mat.index c with
  | .error e => .error e
  | .ok i => match thermoH db c p.T x with
    | .error e => .error e
    | .ok h => match bumpAt p.masses i x with
      | .error e => .error e
      | .ok ms => .ok { p with masses := ms, H := vadd p.H h }

/-- The loop over the compounds of another material (`thermo.py:506-515`). -/
noncomputable def Package.addLoop (db : Db) (q : Package) : List Str → Package → Res Package
  | [], r => .ok r
  | c :: cs, r =>
    if c ∉ r.mat.compounds then .error .exception
    else match q.compoundMass c with
      | .error e => .error e
      | .ok x => match r.addTuple db c x with
        | .error e => .error e
        | .ok r' => q.addLoop db cs r'

/-- `MaterialPackage.__mul__` (`thermo.py:556-580`). -/
noncomputable def Package.mul (db : Db) (p : Package) (isFloat : Bool) (k : V) : Res Package :=
  if isFloat then
    if vgt (some 0) k then .error .exception
    else newPackage db p.mat (p.masses.map (fun x => vmul x k)) p.P p.T false none
  else .error .typeError

/-- `MaterialPackage.__add__` (`thermo.py:473-554`). -/
noncomputable def Package.add (db : Db) (p : Package) (a : Arg Package) : Res Package :=
  match a with
  | .pkg q =>
    if p.mat.ident = q.mat.ident then
      match arrAdd p.masses q.masses with
      | .error e => .error e
      | .ok ms => match newPackage db p.mat ms (some 1) (some 25) false none with
        | .error e => .error e
        | .ok r => match finish (r.setH db (vadd p.H q.H)) with
          | .error e => .error e
          | .ok r' => .ok (r'.setP p.P)
    else match q.addLoop db q.mat.compounds p with
      | .error e => .error e
      | .ok r => finish (r.setH db (vadd p.H q.H))
  | .tup c b x => if b then p.addTuple db c x else .error .typeError
  | .tup3 c b x T =>
    if b then
      match p.mat.index c with
      | .error e => .error e
      | .ok i => match thermoH db c T x with
        | .error e => .error e
        | .ok h => match p.mul db true (some 1) with
          | .error e => .error e
          | .ok r => match bumpAt r.masses i x with
            | .error e => .error e
            | .ok ms => match finish (Package.setH db { r with masses := ms } (vadd p.H h)) with
              | .error e => .error e
              | .ok r' => .ok (r'.setP p.P)
    else .error .typeError
  | _ => .error .typeError

/-- `MaterialPackage.clear` (`thermo.py:855-864`). -/
noncomputable def Package.clear (p : Package) : Package :=
  { p with masses := p.masses.map (fun x => vmul x (some 0)), P := some 1, T := some 25, H := some 0 }

/-- `MaterialPackage.get_assay` (`thermo.py:866-873`). -/
noncomputable def Package.assay (p : Package) : List V := p.masses.map (fun x => vdiv x (vsum p.masses))

/-- `stoich.amount` (`stoichiometry.py:188-199`) for numbers that need not be finite; Python floats divided by zero raise, numpy's do not. -/
noncomputable def amountOf (c : Str) (x : V) : Res V :=
  match Stoich.molarMass c with
  | .error e => .error e
  | .ok w => .ok (vdiv x (some (w : ℝ)))

/-- `MaterialPackage.get_compound_amount` (`thermo.py:913-921`). -/
noncomputable def Package.compoundAmount (p : Package) (c : Str) : Res V :=
  match entry p.mat p.masses c with
  | .error e => .error e
  | .ok x => amountOf c x

/-- The loop of `MaterialPackage.amount` (`thermo.py:923-931`). -/
noncomputable def Package.amountLoop (p : Package) : List Str → V → Res V
  | [], acc => .ok acc
  | c :: cs, acc => match p.compoundAmount c with
    | .error e => .error e
    | .ok n => p.amountLoop cs (vadd acc n)

/-- `MaterialPackage.amount` (`thermo.py:923-931`). -/
noncomputable def Package.amount (p : Package) : Res V := p.amountLoop p.mat.compounds (some 0)

/-- The loop of `get_element_masses` and `get_element_mass` (`thermo.py:942-947,969-973`). -/
noncomputable def Package.elementLoop (p : Package) (elts : List Str) : List Str → List V → Res (List V)
  | [], acc => .ok acc
  | c :: cs, acc => match p.compoundMass c with
    | .error e => .error e
    | .ok x => match Stoich.elementMassFractions c elts with
      | .error e => .error e
      | .ok fs => p.elementLoop elts cs (List.zipWith (fun v (f : ℚ) => vadd v (vmul x (some (f : ℝ)))) acc fs)

/-- `MaterialPackage.get_element_masses` (`thermo.py:933-947`). -/
noncomputable def Package.elementMasses (p : Package) (elts : Option (List Str)) : Res (List V) :=
  let es := elts.getD p.mat.elements
  p.elementLoop es p.mat.compounds (List.replicate es.length (some 0))

/-- `MaterialPackage.get_element_mass` (`thermo.py:962-973`). -/
noncomputable def Package.elementMass (p : Package) (e : Str) : Res V :=
  match p.elementLoop [e] p.mat.compounds [some 0] with
  | .error x => .error x
  | .ok l => match l with
    | a :: _ => .ok a
    | [] => .error .indexError

/-- `self.T = self.T` at the end of an extraction, then the extracted package (`thermo.py:1032-1034,1047-1050`). -/
noncomputable def settle (db : Db) (p : Package) (r : Package) : Res Package × Package :=
  match p.setT db p.T with
  | (.error e, p') => (.error e, p')
  | (.ok _, p') => (.ok r, p')

/-- `MaterialPackage._extract_mass` (`thermo.py:1021-1034`): outcome and package afterwards. -/
noncomputable def Package.extractMass (db : Db) (p : Package) (x : V) : Res Package × Package :=
  if vgt x p.mass then (.error .exception, p)
  else
    let f := vdiv x p.mass
    match newPackage db p.mat (p.masses.map (fun y => vmul y f)) p.P p.T false none with
    | .error e => (.error e, p)
    | .ok r => settle db { p with masses := p.masses.map (fun y => vmul y (vsub (some 1) f)) } r

/-- `MaterialPackage._extract_compound` (`thermo.py:1036-1050`). -/
noncomputable def Package.extractCompound (db : Db) (p : Package) (c : Str) : Res Package × Package :=
  match p.mat.createPackage db none (some 0) (some 1) (some 25) true with
  | .error e => (.error e, p)
  | .ok r =>
    if c ∉ p.mat.compounds then (.ok r, p)
    else match p.mat.index c with
      | .error e => (.error e, p)
      | .ok i => match p.masses[i]? with
        | none => (.error .indexError, p)
        | some y => match Package.setT db { r with masses := r.masses.set i y } p.T with
          | (.error e, _) => (.error e, p)
          | (.ok _, r') => settle db { p with masses := p.masses.set i (some 0) } (r'.setP p.P)

/-- `MaterialPackage._extract_compound_mass` (`thermo.py:1052-1066`). -/
noncomputable def Package.extractCompoundMass (db : Db) (p : Package) (c : Str) (x : V) : Res Package × Package :=
  if c ∉ p.mat.compounds then (p.mat.createPackage db none (some 0) (some 1) (some 25) true, p)
  else match p.mat.index c with
    | .error e => (.error e, p)
    | .ok i => match p.masses[i]? with
      | none => (.error .indexError, p)
      | some y =>
        if vgt x y then (.error .exception, p)
        else
          match Package.setT db { p with masses := p.masses.set i (vsub y x) } p.T with
          | (.error e, p') => (.error e, p')
          | (.ok _, p') => match p'.mat.createPackage db none (some 0) p'.P p'.T true with
            | .error e => (.error e, p')
            | .ok r => (r.addTuple db c x, p')

/-- The loop of `MaterialPackage._extract_material` (`thermo.py:1070-1073`): the extracted package so far or the error, and the package. -/
noncomputable def extractLoop (db : Db) : List Str → Package → Package → Res Package × Package
  | [], r, p => (.ok r, p)
  | c :: cs, r, p => match p.compoundMass c with
    | .error e => (.error e, p)
    | .ok x => match r.addTuple db c x with
      | .error e => (.error e, p)
      | .ok r' => match p.extractCompound db c with
        | (.error e, p') => (.error e, p')
        | (.ok _, p') => extractLoop db cs r' p'

/-- `MaterialPackage._extract_material` (`thermo.py:1068-1076`). -/
noncomputable def Package.extractMaterial (db : Db) (p : Package) (m : Material) : Res Package × Package :=
  match m.createPackage db none (some 0) (some 1) (some 25) true with
  | .error e => (.error e, p)
  | .ok r => match extractLoop db m.compounds r p with
    | (.error e, p') => (.error e, p')
    | (.ok r', p') => (finish (r'.setT db p'.T), p')

/-- `MaterialPackage.extract` (`thermo.py:975-1019`): the extracted package or the error, and the package afterwards. -/
noncomputable def Package.extract (db : Db) (p : Package) (a : Arg Package) : Res Package × Package :=
  match a with
  | .num b x => if b then p.extractMass db x else (.error .typeError, p)
  | .tup c b x => if b then p.extractCompoundMass db c x else (.error .typeError, p)
  | .str c => p.extractCompound db c
  | .mat m => p.extractMaterial db m
  | _ => (.error .typeError, p)

end Auxi.Thermo
