import Mathlib.Data.Rat.Defs
import Mathlib.Algebra.Order.Field.Rat
import Mathlib.Algebra.BigOperators.Group.List.Basic
import Verif.Basic

/-!
# Model of `/repo/auxi/modelling/process/materials/psd.py` (particle size distributions)

The masses live in numpy arrays.  numpy does not raise on a division by zero but yields an infinity or `nan`, so numbers are exact rationals
extended with these.  Simplifications: no rounding; no negative zero; arrays are one dimensional and of floating point type; reading of material
files is modelled in `Verif.FileFormat`; `__str__` in `Verif.Printout`; a `nan` among the size classes of a material is not modelled.
-/
namespace Auxi.Psd

/-- A `float` / `numpy.float64`: `psd.py:218,394,429,461`. -/
inductive F64
  /-- a finite number -/
  | fin (q : ℚ)
  /-- plus infinity -/
  | pinf
  /-- minus infinity -/
  | ninf
  /-- not a number -/
  | nan
  deriving DecidableEq, Repr

/-- `-a`. -/
def F64.neg : F64 → F64
  | .fin q => .fin (-q)
  | .pinf => .ninf
  | .ninf => .pinf
  | .nan => .nan

/-- `a + b` (`psd.py:283,310`). -/
def F64.add : F64 → F64 → F64
  | .fin a, .fin b => .fin (a + b)
  | .nan, _ => .nan
  | _, .nan => .nan
  | .pinf, .ninf => .nan
  | .ninf, .pinf => .nan
  | .pinf, _ => .pinf
  | _, .pinf => .pinf
  | .ninf, _ => .ninf
  | _, .ninf => .ninf

/-- `a - b` (`psd.py:465,477`). -/
def F64.sub (a b : F64) : F64 := a.add b.neg

/-- Infinity times a finite number. -/
def F64.scaleInf (neg : Bool) (q : ℚ) : F64 :=
  if q = 0 then .nan else if (decide (q < 0)) = neg then .pinf else .ninf

/-- `a * b` (`psd.py:218,338,463`). -/
def F64.mul : F64 → F64 → F64
  | .fin a, .fin b => .fin (a * b)
  | .nan, _ => .nan
  | _, .nan => .nan
  | .fin a, .pinf => F64.scaleInf false a
  | .fin a, .ninf => F64.scaleInf true a
  | .pinf, .fin b => F64.scaleInf false b
  | .ninf, .fin b => F64.scaleInf true b
  | .pinf, .pinf => .pinf
  | .ninf, .ninf => .pinf
  | .pinf, .ninf => .ninf
  | .ninf, .pinf => .ninf

/-- `a / b` in numpy: no exception on zero (`psd.py:218,394,429,461`). -/
def F64.div : F64 → F64 → F64
  | .fin a, .fin b => if b = 0 then (if a = 0 then .nan else if a < 0 then .ninf else .pinf) else .fin (a / b)
  | .nan, _ => .nan
  | _, .nan => .nan
  | .fin _, .pinf => .fin 0
  | .fin _, .ninf => .fin 0
  | .pinf, .fin b => if b < 0 then .ninf else .pinf
  | .ninf, .fin b => if b < 0 then .pinf else .ninf
  | _, _ => .nan

/-- `a > b` (`psd.py:457,471`): false as soon as a `nan` is involved. -/
def F64.gt : F64 → F64 → Bool
  | .fin a, .fin b => decide (a > b)
  | .nan, _ => false
  | _, .nan => false
  | .pinf, .pinf => false
  | .pinf, _ => true
  | .ninf, _ => false
  | _, .ninf => true
  | .fin _, .pinf => false

/-- `ndarray.sum()` / `sum(ndarray)` (`psd.py:196,394,403`). -/
def sum (l : List F64) : F64 := l.foldl F64.add (.fin 0)

/-- Elementwise `a + b` of one dimensional arrays with numpy's broadcasting (`psd.py:283,508`): equal lengths, or one of length one. -/
def vadd (a b : List F64) : Res (List F64) :=
  if a.length = b.length then .ok (List.zipWith F64.add a b)
  else match a, b with
    | [x], _ => .ok (b.map (F64.add x))
    | _, [y] => .ok (a.map (fun x => x.add y))
    | _, _ => .error .valueError

/-- `psd.Material` (`psd.py:27-100`).  Objects compare by identity (`/repo/auxi/core/objects.py` defines no `__eq__`), hence `ident`. -/
structure Material where
  /-- object identity -/
  ident : ℕ
  /-- `self.size_classes` -/
  classes : List ℚ
  /-- `self.assays` in insertion order -/
  assays : List (Str × List F64)
  deriving DecidableEq, Repr

/-- `list.index` (`psd.py:154`): position of the first occurrence. -/
def indexOf : List ℚ → ℚ → Option ℕ
  | [], _ => none
  | c :: l, x => if c = x then some 0 else (indexOf l x).map (· + 1)

/-- `Material.get_size_class_index` (`psd.py:144-154`): `ValueError` if absent. -/
def Material.index (m : Material) (c : ℚ) : Res ℕ :=
  match indexOf m.classes c with
  | some i => .ok i
  | none => .error .valueError

/-- What a caller can pass as an assay. -/
inductive AssayArg
  /-- a one dimensional numpy array -/
  | array (l : List F64)
  /-- a numpy array of another dimension -/
  | otherShape
  /-- any other object -/
  | other

/-- `Material.add_assay` (`psd.py:166-185`): outcome and material afterwards. -/
def Material.addAssay (m : Material) (name : Str) (a : AssayArg) : Res Unit × Material :=
  match a with
  | .other => (.error .exception, m)
  | .otherShape => (.error .exception, m)
  | .array l =>
    if l.length ≠ m.classes.length then (.error .exception, m)
    else if name ∈ m.assays.map (·.1) then (.error .exception, m)
    else (.ok (), { m with assays := m.assays ++ [(name, l)] })

/-- `psd.MaterialPackage` (`psd.py:221-243`). -/
structure Package where
  /-- `self.material` -/
  mat : Material
  /-- `self.size_class_masses` -/
  masses : List F64
  deriving DecidableEq, Repr

/-- `self.assays[name]` (`psd.py:196,218`). -/
def Material.assay (m : Material) (name : Str) : Res (List F64) :=
  match m.assays.lookup name with
  | some l => .ok l
  | none => .error .keyError

/-- `Material.get_assay_total` (`psd.py:187-196`). -/
def Material.assayTotal (m : Material) (name : Str) : Res F64 := (m.assay name).map sum

/-- `Material.create_package` (`psd.py:156-164,198-218`). -/
def Material.createPackage (m : Material) (assay : Option Str) (mass : F64) (normalise : Bool) : Res Package :=
  match assay with
  | none => .ok ⟨m, List.replicate m.classes.length (.fin 0)⟩
  | some name =>
    let total : Res F64 := if normalise then m.assayTotal name else .ok (.fin 1)
    match total with
    | .error e => .error e
    | .ok t => match m.assay name with
      | .error e => .error e
      | .ok l => .ok ⟨m, l.map (fun x => (mass.mul x).div t)⟩

/-- `MaterialPackage.get_mass` (`psd.py:396-403`). -/
def Package.mass (p : Package) : F64 := sum p.masses

/-- `MaterialPackage.get_assay` (`psd.py:387-394`). -/
def Package.assay (p : Package) : List F64 := p.masses.map (fun x => x.div (sum p.masses))

/-- `MaterialPackage.get_size_class_mass` (`psd.py:405-416`). -/
def Package.classMass (p : Package) (c : ℚ) : Res F64 :=
  match p.mat.index c with
  | .error e => .error e
  | .ok i => match p.masses[i]? with
    | some x => .ok x
    | none => .error .indexError

/-- `MaterialPackage.get_size_class_mass_fraction` (`psd.py:419-429`). -/
def Package.classFraction (p : Package) (c : ℚ) : Res F64 :=
  match p.classMass c with
  | .error e => .error e
  | .ok x => .ok (x.div p.mass)

/-- Arguments of `+`, `*`, `add_to` and `extract` (shared with `slurry.py`).  `isFloat` tells whether a number is a `float`,
`numpy.float64` or `numpy.float32` (`psd.py:330-332,359-363,454-456`). -/
inductive Arg (α : Type)
  /-- another package -/
  | pkg (q : α)
  /-- a tuple of a `float` and a number -/
  | tup (c : ℚ) (isFloat : Bool) (x : F64)
  /-- a tuple of a string and a number -/
  | strTup (s : Str) (isFloat : Bool) (x : F64)
  /-- a number -/
  | num (isFloat : Bool) (x : F64)
  /-- a string, given by the result of `float(text)`: `none` if that raises `ValueError` (`psd.py:485`) -/
  | str (value : Option ℚ)
  /-- anything else -/
  | other

/-- `result.size_class_masses[index] += mass` after `get_size_class_index` (`psd.py:300-311,521-530`); only float masses are accepted
(`_is_size_class_mass_tuple`, `psd.py:345-366`). -/
def Package.addTuple (p : Package) (c : ℚ) (isFloat : Bool) (x : F64) : Res Package :=
  if isFloat then
    match p.mat.index c with
    | .error e => .error e
    | .ok i => match p.masses[i]? with
      | none => .error .indexError
      | some y => .ok { p with masses := p.masses.set i (y.add x) }
  else .error .typeError

/-- The loop over the size classes of another material (`psd.py:286-298,509-519`): outcome and receiver afterwards.  The message of the
exception for a missing class concatenates a string and a float, which is a `TypeError`. -/
def Package.addLoop (q : Package) : List ℚ → Package → Res Unit × Package
  | [], p => (.ok (), p)
  | c :: cs, p =>
    if c ∉ p.mat.classes then (.error .typeError, p)
    else match q.classMass c with
      | .error e => (.error e, p)
      | .ok x => match p.addTuple c true x with
        | .error e => (.error e, p)
        | .ok p' => q.addLoop cs p'

/-- `MaterialPackage.__add__` (`psd.py:263-315`). -/
def Package.add (p : Package) (a : Arg Package) : Res Package :=
  match a with
  | .pkg q =>
    if p.mat.ident = q.mat.ident then (vadd p.masses q.masses).map (fun l => ⟨p.mat, l⟩)
    else match q.addLoop q.mat.classes p with
      | (.error e, _) => .error e
      | (.ok _, p') => .ok p'
  | .tup c b x => p.addTuple c b x
  | _ => .error .typeError

/-- `MaterialPackage.add_to` (`psd.py:496-534`): outcome and receiver afterwards. -/
def Package.addTo (p : Package) (a : Arg Package) : Res Unit × Package :=
  match a with
  | .pkg q =>
    if p.mat.ident = q.mat.ident then
      match vadd p.masses q.masses with
      | .error e => (.error e, p)
      | .ok l => (.ok (), ⟨p.mat, l⟩)
    else q.addLoop q.mat.classes p
  | .tup c b x => match p.addTuple c b x with
    | .error e => (.error e, p)
    | .ok p' => (.ok (), p')
  | _ => (.error .typeError, p)

/-- `MaterialPackage.__mul__` (`psd.py:317-343`). -/
def Package.mul (p : Package) (isFloat : Bool) (k : F64) : Res Package :=
  if isFloat then
    if (F64.fin 0).gt k then .error .exception else .ok ⟨p.mat, p.masses.map (·.mul k)⟩
  else .error .typeError

/-- `MaterialPackage.clear` (`psd.py:380-385`). -/
def Package.clear (p : Package) : Package := ⟨p.mat, p.masses.map (·.mul (.fin 0))⟩

/-- `MaterialPackage.extract` (`psd.py:431-493`): the extracted package or the error, and the package afterwards. -/
def Package.extract (p : Package) (a : Arg Package) : Res Package × Package :=
  match a with
  | .num b x =>
    if b then
      if x.gt p.mass then (.error .exception, p)
      else
        let f := x.div p.mass
        (.ok ⟨p.mat, p.masses.map (·.mul f)⟩, ⟨p.mat, p.masses.map (·.mul ((F64.fin 1).sub f))⟩)
    else (.error .typeError, p)
  | .tup c b x =>
    if b then
      match p.mat.index c with
      | .error e => (.error e, p)
      | .ok i => match p.masses[i]? with
        | none => (.error .indexError, p)
        | some y =>
          if x.gt y then (.error .exception, p)
          else
            let rest := p.masses.set i (y.sub x)
            (.ok ⟨p.mat, (rest.map (·.mul (.fin 0))).set i x⟩, ⟨p.mat, rest⟩)
    else (.error .typeError, p)
  | .str v =>
    match v with
    | none => (.error .valueError, p)
    | some c => match p.mat.index c with
      | .error e => (.error e, p)
      | .ok i => match p.masses[i]? with
        | none => (.error .indexError, p)
        | some y => (.ok ⟨p.mat, (p.masses.map (·.mul (.fin 0))).set i y⟩, ⟨p.mat, p.masses.set i (.fin 0)⟩)
  | _ => (.error .typeError, p)

end Auxi.Psd
