import Verif.Psd
import Verif.Slurry
import Verif.Rounding

/-!
# `psd.py` and `slurry.py` (packages) with the numbers of the machine

The functions of `Psd` and `Slurry` with every addition, subtraction, multiplication and division rounded by `rnd`.  `ndarray.sum` adds in an order of its own (pairwise, in blocks), so it is a
parameter `S`; about it is assumed only that it adds the numbers in some order and with some bracketing (`Spec.Adds`).  Infinities and `nan` are as in `Psd`.  Overflow is not modelled: `rnd` has
no largest number; nor are arrays or factors of `numpy.float32`.
-/
namespace Auxi.PsdFloat
open Auxi Auxi.Psd

variable (rnd : ℚ → ℚ) (S : List ℚ → ℚ)

/-- The result of an operation, rounded. -/
def rd : F64 → F64
  | .fin q => .fin (rnd q)
  | x => x

/-- `a + b` (`psd.py:283,310`). -/
def addF (a b : F64) : F64 := rd rnd (a.add b)
/-- `a - b` (`psd.py:465,477`). -/
def subF (a b : F64) : F64 := rd rnd (a.sub b)
/-- `a * b` (`psd.py:218,338,463`). -/
def mulF (a b : F64) : F64 := rd rnd (a.mul b)
/-- `a / b` (`psd.py:218,394,429,461`). -/
def divF (a b : F64) : F64 := rd rnd (a.div b)

/-- The numbers of an array, if all are finite. -/
def values : List F64 → Option (List ℚ)
  | [] => some []
  | .fin q :: l => (values l).map (q :: ·)
  | _ :: _ => none

/-- `ndarray.sum()` (`psd.py:394,403`, `slurry.py:538,547,556`). -/
def arraySum (l : List F64) : F64 := match values l with
  | some qs => .fin (S qs)
  | none => Psd.sum l

/-- `sum(ndarray)`, from left to right (`psd.py:196`, `slurry.py:267`; the elements are `numpy.float64`, which the built-in `sum` adds one by one in every version of Python). -/
def pySum (l : List F64) : F64 := l.foldl (addF rnd) (.fin 0)

/-- `Material.create_package` (`psd.py:156-164,187-218`). -/
def createPackage (m : Material) (assay : Option Str) (mass : F64) (normalise : Bool) : Res Package :=
  match assay with
  | none => .ok ⟨m, List.replicate m.classes.length (.fin 0)⟩
  | some name =>
    let total : Res F64 := if normalise then (m.assay name).map (pySum rnd) else .ok (.fin 1)
    match total with
    | .error e => .error e
    | .ok t => match m.assay name with
      | .error e => .error e
      | .ok l => .ok ⟨m, l.map (fun x => divF rnd (mulF rnd mass x) t)⟩

/-- `MaterialPackage.get_mass` (`psd.py:396-403`). -/
def mass (p : Package) : F64 := arraySum S p.masses

/-- `MaterialPackage.get_assay` (`psd.py:387-394`). -/
def assay (p : Package) : List F64 := p.masses.map (fun x => divF rnd x (arraySum S p.masses))

/-- `MaterialPackage.get_size_class_mass_fraction` (`psd.py:419-429`). -/
def classFraction (p : Package) (c : ℚ) : Res F64 :=
  match p.classMass c with
  | .error e => .error e
  | .ok x => .ok (divF rnd x (mass S p))

/-- Elementwise `a + b` (`psd.py:283,508`), as `Psd.vadd`. -/
def vadd (a b : List F64) : Res (List F64) :=
  if a.length = b.length then .ok (List.zipWith (addF rnd) a b)
  else match a, b with
    | [x], _ => .ok (b.map (addF rnd x))
    | _, [y] => .ok (a.map (fun x => addF rnd x y))
    | _, _ => .error .valueError

/-- Adding a mass to a size class (`psd.py:300-311,521-530`), as `Psd.Package.addTuple`. -/
def addTuple (p : Package) (c : ℚ) (isFloat : Bool) (x : F64) : Res Package :=
  if isFloat then
    match p.mat.index c with
    | .error e => .error e
    | .ok i => match p.masses[i]? with
      | none => .error .indexError
      | some y => .ok { p with masses := p.masses.set i (addF rnd y x) }
  else .error .typeError

/-- The loop over the size classes of another material (`psd.py:286-298,509-519`), as `Psd.Package.addLoop`. -/
def addLoop (q : Package) : List ℚ → Package → Res Unit × Package
  | [], p => (.ok (), p)
  | c :: cs, p =>
    if c ∉ p.mat.classes then (.error .typeError, p)
    else match q.classMass c with
      | .error e => (.error e, p)
      | .ok x => match addTuple rnd p c true x with
        | .error e => (.error e, p)
        | .ok p' => addLoop q cs p'

/-- `MaterialPackage.__add__` (`psd.py:263-315`). -/
def add (p : Package) (a : Arg Package) : Res Package :=
  match a with
  | .pkg q =>
    if p.mat.ident = q.mat.ident then (vadd rnd p.masses q.masses).map (fun l => ⟨p.mat, l⟩)
    else match addLoop rnd q q.mat.classes p with
      | (.error e, _) => .error e
      | (.ok _, p') => .ok p'
  | .tup c b x => addTuple rnd p c b x
  | _ => .error .typeError

/-- `MaterialPackage.__mul__` (`psd.py:317-343`). -/
def mul (p : Package) (isFloat : Bool) (k : F64) : Res Package :=
  if isFloat then
    if (F64.fin 0).gt k then .error .exception else .ok ⟨p.mat, p.masses.map (mulF rnd · k)⟩
  else .error .typeError

/-- `MaterialPackage.extract` (`psd.py:431-493`): the extracted package or the error, and the package afterwards. -/
def extract (p : Package) (a : Arg Package) : Res Package × Package :=
  match a with
  | .num b x =>
    if b then
      if x.gt (mass S p) then (.error .exception, p)
      else
        let f := divF rnd x (mass S p)
        (.ok ⟨p.mat, p.masses.map (mulF rnd · f)⟩, ⟨p.mat, p.masses.map (mulF rnd · (subF rnd (.fin 1) f))⟩)
    else (.error .typeError, p)
  | .tup c b x =>
    if b then
      match p.mat.index c with
      | .error e => (.error e, p)
      | .ok i => match p.masses[i]? with
        | none => (.error .indexError, p)
        | some y =>
          if x.gt y then (.error .exception, p)
          else
            let rest := p.masses.set i (subF rnd y x)
            (.ok ⟨p.mat, (rest.map (mulF rnd · (.fin 0))).set i x⟩, ⟨p.mat, rest⟩)
    else (.error .typeError, p)
  | .str v =>
    match v with
    | none => (.error .valueError, p)
    | some c => match p.mat.index c with
      | .error e => (.error e, p)
      | .ok i => match p.masses[i]? with
        | none => (.error .indexError, p)
        | some y => (.ok ⟨p.mat, (p.masses.map (mulF rnd · (.fin 0))).set i y⟩, ⟨p.mat, p.masses.set i (.fin 0)⟩)
  | _ => (.error .typeError, p)

end Auxi.PsdFloat

namespace Auxi.SlurryFloat
open Auxi.Slurry Auxi.PsdFloat
open Auxi.Psd (F64 Arg)

variable (rnd : ℚ → ℚ) (S : List ℚ → ℚ)

/-- `MaterialPackage.get_solid_mass` (`slurry.py:549-556`). -/
def solidMass (p : Package) : F64 := arraySum S p.masses

/-- `MaterialPackage.get_mass` (`slurry.py:540-547`). -/
def mass (p : Package) : F64 := addF rnd (arraySum S p.masses) p.water

/-- `MaterialPackage.__add__` (`slurry.py:361-432`). -/
def add (p : Package) (a : Arg Package) : Res Package :=
  match a with
  | .pkg q =>
    let ms := solidMass S p
    let mo := solidMass S q
    let d := divF rnd (addF rnd ms mo) (addF rnd (divF rnd ms p.density) (divF rnd mo q.density))
    let h := addF rnd p.water q.water
    match PsdFloat.add rnd p.solids (.pkg q.solids) with
    | .error e => .error e
    | .ok s => .ok ⟨p.mat, d, h, s.masses⟩
  | .strTup _ b x => if b then .ok { p with water := addF rnd p.water x } else .error .typeError
  | .tup c b x => match PsdFloat.add rnd p.solids (.tup c b x) with
    | .error e => .error e
    | .ok s => .ok (p.withSolids s)
  | _ => .error .typeError

/-- `MaterialPackage.extract` (`slurry.py:612-692`): the extracted package or the error, and the package afterwards. -/
def extract (p : Package) (a : Arg Package) : Res Package × Package :=
  match a with
  | .num b x =>
    if b then
      if x.gt (mass rnd S p) then (.error .exception, p)
      else
        let f := divF rnd x (mass rnd S p)
        let g := subF rnd (F64.fin 1) f
        (.ok ⟨p.mat, p.density, mulF rnd p.water f, p.masses.map (mulF rnd · f)⟩, ⟨p.mat, p.density, mulF rnd p.water g, p.masses.map (mulF rnd · g)⟩)
    else (.error .typeError, p)
  | .strTup _ b x =>
    if b then
      if x.gt p.water then (.error .exception, p)
      else (.ok ⟨p.mat, p.density, x, p.masses.map (mulF rnd · (.fin 0))⟩, { p with water := subF rnd p.water x })
    else (.error .typeError, p)
  | .tup c b x => match PsdFloat.extract rnd S p.solids (.tup c b x) with
    | (.error e, s) => (.error e, p.withSolids s)
    | (.ok r, s) => (.ok ⟨p.mat, p.density, .fin 0, r.masses⟩, p.withSolids s)
  | .str v => match PsdFloat.extract rnd S p.solids (.str v) with
    | (.error e, s) => (.error e, p.withSolids s)
    | (.ok r, s) => (.ok ⟨p.mat, p.density, mulF rnd p.water (.fin 0), r.masses⟩, p.withSolids s)
  | _ => (.error .typeError, p)

end Auxi.SlurryFloat
