import Verif.Chem
import Verif.Rounding

/-!
# `thermo.py` (packages) with the numbers of the machine

The functions of `/repo/auxi/modelling/process/materials/thermo.py:376-580,582-599,785-898,975-1076` for packages that are not coal, as in `Verif.Thermo`, with every addition, subtraction,
multiplication and division of masses and enthalpies rounded by `rnd`.  Parameters: `S`, the order in which `ndarray.sum` adds (see `Verif.PsdFloat`); `h`, the enthalpy per kilogram
that `thermo.H` has computed before its last operation, the multiplication with the mass (`/repo/auxi/tools/chemistry/thermochemistry.py:674-690,819-837`), or the error it raises; and `solve`,
the temperature found by the secant loop `_calculate_T` (`thermo.py:706-733`, modelled in `Verif.Thermo`).  Simplifications: no overflow; numbers that are not finite, which arise when a mass is taken out of an
empty package (C69), are not modelled.

The code of streams that are not coal (`thermo.py:1079-1315,1503-1543,1618-1640,1722-1845`) is the same text with flow rates for masses (`mfr` for `mass`, `Hfr` for `H`), so the definitions
are a model of streams too; each cites both places.
-/
namespace Auxi.ThermoFloat
open Auxi.Chem (indexOf)

/-- What the functions below use of a `Material` (`thermo.py:28-152`): its identity and its compounds. -/
structure Material where
  /-- object identity -/
  ident : ℕ
  /-- `self.compounds` -/
  compounds : List Str
  deriving DecidableEq, Repr

/-- `MaterialPackage` (`thermo.py:376-413`) or `MaterialStream` (`thermo.py:1079-1114`), not coal. -/
structure Package where
  /-- `self.material` -/
  mat : Material
  /-- `self._compound_masses` -/
  masses : List ℚ
  /-- `self._P` -/
  P : ℚ
  /-- `self._T` -/
  T : ℚ
  /-- `self._H` -/
  H : ℚ
  deriving DecidableEq, Repr

variable (rnd : ℚ → ℚ) (S : List ℚ → ℚ) (h : Str → ℚ → Res ℚ) (solve : Material → List ℚ → ℚ → ℚ → Res ℚ)

/-- `Material.get_compound_index` (`thermo.py:266-275`). -/
def Material.index (m : Material) (c : Str) : Res ℕ :=
  match indexOf m.compounds c with
  | some i => .ok i
  | none => .error .valueError

/-- `thermo.H(compound, T, mass)` (`thermochemistry.py:674-690,819-837`): the last operation is the multiplication with the mass. -/
def thermoH (c : Str) (T x : ℚ) : Res ℚ :=
  match h c T with
  | .error e => .error e
  | .ok v => .ok (rnd (v * x))

/-- The loop of `_calculate_H` (`thermo.py:592-599`; `_calculate_Hfr`, `thermo.py:1308-1315`). -/
def hLoop (m : Material) (a : List ℚ) (T : ℚ) : List Str → ℚ → Res ℚ
  | [], acc => .ok acc
  | c :: cs, acc => match m.index c with
    | .error e => .error e
    | .ok i => match a[i]? with
      | none => .error .indexError
      | some x => match thermoH rnd h c T x with
        | .error e => .error e
        | .ok dh => hLoop m a T cs (rnd (acc + dh))

/-- `MaterialPackage._calculate_H` (`thermo.py:582-599`; `thermo.py:1297-1315`). -/
def calcH (m : Material) (a : List ℚ) (T : ℚ) : Res ℚ := hLoop rnd h m a T m.compounds 0

/-- `MaterialPackage.mass` (`thermo.py:876-883`; `mfr`, `thermo.py:1618-1625`). -/
def mass (p : Package) : ℚ := S p.masses

/-- `MaterialPackage.__init__` (`thermo.py:389-413`; `thermo.py:1092-1114`). -/
def newPackage (m : Material) (a : List ℚ) (P T : ℚ) : Res Package :=
  if S a > 0 then
    match calcH rnd h m a T with
    | .error e => .error e
    | .ok v => .ok ⟨m, a, P, T, v⟩
  else .ok ⟨m, a, P, T, 0⟩

/-- `Material.create_package()` without an assay (`thermo.py:336-338`; `create_stream`, `thermo.py:363-365`). -/
def emptyPackage (m : Material) (P T : ℚ) : Res Package := newPackage rnd S h m (List.replicate m.compounds.length 0) P T

/-- The setter of `T` (`thermo.py:815-825`; `thermo.py:1534-1544`): outcome and package afterwards. -/
def setT (p : Package) (T : ℚ) : Res Unit × Package :=
  match calcH rnd h p.mat p.masses T with
  | .error e => (.error e, { p with T := T })
  | .ok v => (.ok (), { p with T := T, H := v })

/-- The setter of `H` (`thermo.py:793-803`; `Hfr`, `thermo.py:1512-1522`), for a caller that only returns the package if nothing is raised. -/
def setH (p : Package) (H : ℚ) : Res Package :=
  match solve p.mat p.masses p.T H with
  | .error e => .error e
  | .ok t => .ok { p with H := H, T := t }

/-- `MaterialPackage.get_compound_mass` (`thermo.py:885-898`; `get_compound_mfr`, `thermo.py:1627-1640`). -/
def compoundMass (p : Package) (c : Str) : Res ℚ :=
  if c ∈ p.mat.compounds then
    match p.mat.index c with
    | .error e => .error e
    | .ok i => match p.masses[i]? with
      | some x => .ok x
      | none => .error .indexError
  else .ok 0

/-- `+ (compound, mass)` (`thermo.py:518-533`; `thermo.py:1235-1248`). -/
def addTuple (p : Package) (c : Str) (x : ℚ) : Res Package :=
  match p.mat.index c with
  | .error e => .error e
  | .ok i => match thermoH rnd h c p.T x with
    | .error e => .error e
    | .ok v => match p.masses[i]? with
      | none => .error .indexError
      | some y => .ok { p with masses := p.masses.set i (rnd (y + x)), H := rnd (p.H + v) }

/-- The loop over the compounds of another material (`thermo.py:506-515`; `thermo.py:1221-1230`). -/
def addLoop (q : Package) : List Str → Package → Res Package
  | [], r => .ok r
  | c :: cs, r =>
    if c ∉ r.mat.compounds then .error .exception
    else match compoundMass q c with
      | .error e => .error e
      | .ok x => match addTuple rnd h r c x with
        | .error e => .error e
        | .ok r' => addLoop q cs r'

/-- Adding a package (`thermo.py:497-515`; `thermo.py:1199-1232`).  Arrays of one material have one length. -/
def addPackage (p q : Package) : Res Package :=
  if p.mat.ident = q.mat.ident then
    if p.masses.length = q.masses.length then
      match newPackage rnd S h p.mat (List.zipWith (fun x y => rnd (x + y)) p.masses q.masses) 1 25 with
      | .error e => .error e
      | .ok r => match setH solve r (rnd (p.H + q.H)) with
        | .error e => .error e
        | .ok r' => .ok { r' with P := p.P }
    else .error .valueError
  else match addLoop rnd h q q.mat.compounds p with
    | .error e => .error e
    | .ok r => setH solve r (rnd (p.H + q.H))

/-- `MaterialPackage.__mul__` with a float (`thermo.py:556-580`; `thermo.py:1270-1295`). -/
def mul (p : Package) (k : ℚ) : Res Package :=
  if k < 0 then .error .exception else newPackage rnd S h p.mat (p.masses.map (fun x => rnd (x * k))) p.P p.T

/-- `+ (compound, mass, temperature)` (`thermo.py:536-551`; `thermo.py:1251-1264`). -/
def addTuple3 (p : Package) (c : Str) (x T : ℚ) : Res Package :=
  match p.mat.index c with
  | .error e => .error e
  | .ok i => match thermoH rnd h c T x with
    | .error e => .error e
    | .ok v => match mul rnd S h p 1 with
      | .error e => .error e
      | .ok r => match r.masses[i]? with
        | none => .error .indexError
        | some y => match setH solve { r with masses := r.masses.set i (rnd (y + x)) } (rnd (p.H + v)) with
          | .error e => .error e
          | .ok r' => .ok { r' with P := p.P }

/-- `self.T = self.T` at the end of an extraction, then the extracted package (`thermo.py:1032-1034,1047-1050`; `thermo.py:1780-1782,1798-1801`). -/
def settle (p r : Package) : Res Package × Package :=
  match setT rnd h p p.T with
  | (.error e, p') => (.error e, p')
  | (.ok _, p') => (.ok r, p')

/-- `MaterialPackage._extract_mass` (`thermo.py:1021-1034`; `_extract_mfr`, `thermo.py:1768-1782`): outcome and package afterwards.  Of an empty package the code makes numbers that are not finite; the model then says `valueError`. -/
def extractMass (p : Package) (x : ℚ) : Res Package × Package :=
  if x > mass S p then (.error .exception, p)
  else if mass S p = 0 then (.error .valueError, p)
  else
    let f := rnd (x / mass S p)
    match newPackage rnd S h p.mat (p.masses.map (fun y => rnd (y * f))) p.P p.T with
    | .error e => (.error e, p)
    | .ok r => settle rnd h { p with masses := p.masses.map (fun y => rnd (y * rnd (1 - f))) } r

/-- `MaterialPackage._extract_compound` (`thermo.py:1036-1050`; `thermo.py:1784-1801`). -/
def extractCompound (p : Package) (c : Str) : Res Package × Package :=
  match emptyPackage rnd S h p.mat 1 25 with
  | .error e => (.error e, p)
  | .ok r =>
    if c ∉ p.mat.compounds then (.ok r, p)
    else match p.mat.index c with
      | .error e => (.error e, p)
      | .ok i => match p.masses[i]? with
        | none => (.error .indexError, p)
        | some y => match setT rnd h { r with masses := r.masses.set i y } p.T with
          | (.error e, _) => (.error e, p)
          | (.ok _, r') => settle rnd h { p with masses := p.masses.set i 0 } { r' with P := p.P }

/-- `MaterialPackage._extract_compound_mass` (`thermo.py:1052-1066`; `thermo.py:1818-1835`). -/
def extractCompoundMass (p : Package) (c : Str) (x : ℚ) : Res Package × Package :=
  if c ∉ p.mat.compounds then (emptyPackage rnd S h p.mat 1 25, p)
  else match p.mat.index c with
    | .error e => (.error e, p)
    | .ok i => match p.masses[i]? with
      | none => (.error .indexError, p)
      | some y =>
        if x > y then (.error .exception, p)
        else match setT rnd h { p with masses := p.masses.set i (rnd (y - x)) } p.T with
          | (.error e, p') => (.error e, p')
          | (.ok _, p') => match emptyPackage rnd S h p'.mat p'.P p'.T with
            | .error e => (.error e, p')
            | .ok r => (addTuple rnd h r c x, p')

/-- The loop of `_extract_material` and the setting of the temperature after it (`thermo.py:1070-1076,1839-1845`): the extracted package so far, the package, the outcome and the package afterwards. -/
def materialLoop : List Str → Package → Package → Res Package × Package
  | [], r, p => match setT rnd h r p.T with
    | (.error e, _) => (.error e, p)
    | (.ok _, r') => (.ok r', p)
  | c :: cs, r, p => match compoundMass p c with
    | .error e => (.error e, p)
    | .ok x => match addTuple rnd h r c x with
      | .error e => (.error e, p)
      | .ok r' => match extractCompound rnd S h p c with
        | (.error e, p') => (.error e, p')
        | (.ok _, p') => materialLoop cs r' p'

/-- `MaterialPackage._extract_material` (`thermo.py:1068-1076`; `thermo.py:1837-1845` for streams): all of every compound of another material. -/
def extractMaterial (p : Package) (m : Material) : Res Package × Package :=
  match emptyPackage rnd S h m 1 25 with
  | .error e => (.error e, p)
  | .ok r => materialLoop rnd S h m.compounds r p

end Auxi.ThermoFloat
