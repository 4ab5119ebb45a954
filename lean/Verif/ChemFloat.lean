import Verif.Chem
import Verif.Rounding

/-!
# `chem.py` with the arithmetic of the machine

`/repo/auxi/modelling/process/materials/chem.py` once more: the same functions as in `Verif.Chem`, but the result of every operation on `float`s is rounded by `rnd`; with
`rnd64` of `Verif.Rounding` these are Python's results.  `sum` adds from left to right, as Python does up to version 3.11 (the project predates 3.12, whose `sum` compensates errors).
Looking up compounds and assays involves no arithmetic and is shared with `Verif.Chem`.  Element masses are not modelled here.
-/
namespace Auxi.ChemFloat
open Auxi Auxi.Chem

variable (rnd : ℚ → ℚ)

/-- The value an operand has in a `float` operation (`chem.py:301`): an `int` is converted. -/
def conv (a : Num) : ℚ := if a.isFloat then a.val else rnd a.val

/-- `a + b` (`chem.py:301,400,580`): on two `int`s exact. -/
def addN (a b : Num) : Num := if a.isFloat || b.isFloat then ⟨true, rnd (conv rnd a + conv rnd b)⟩ else ⟨false, a.val + b.val⟩

/-- `a - b` (`chem.py:510,523`). -/
def subN (a b : Num) : Num := if a.isFloat || b.isFloat then ⟨true, rnd (conv rnd a - conv rnd b)⟩ else ⟨false, a.val - b.val⟩

/-- `a * b` (`chem.py:232,331,509-510`). -/
def mulN (a b : Num) : Num := if a.isFloat || b.isFloat then ⟨true, rnd (conv rnd a * conv rnd b)⟩ else ⟨false, a.val * b.val⟩

/-- `a / b` (`chem.py:232,390,423,505`): on two `int`s the float nearest to the quotient. -/
def divN (a b : Num) : Res Num :=
  if b.val = 0 then .error .zeroDivisionError
  else if a.isFloat || b.isFloat then .ok ⟨true, rnd (conv rnd a / conv rnd b)⟩ else .ok ⟨true, rnd (a.val / b.val)⟩

/-- `sum(list)` (`chem.py:210,389,400`). -/
def pySum (l : List Num) : Num := l.foldl (addN rnd) (int 0)

/-- `Material.create_package` (`chem.py:168-176,201-233`). -/
def createPackage (m : Material) (assay : Option Str) (mass : Num) (normalise : Bool) : Res Package :=
  match assay with
  | none => .ok ⟨m, List.replicate m.compounds.length (int 0)⟩
  | some name =>
    match m.assay name with
    | .error e => .error e
    | .ok l => match mapRes (fun x => divN rnd (mulN rnd mass x) (if normalise then pySum rnd l else fl 1)) l with
      | .error e => .error e
      | .ok ms => .ok ⟨m, ms⟩

/-- `MaterialPackage.get_mass` (`chem.py:393-400`). -/
def mass (p : Package) : Num := pySum rnd p.masses

/-- `MaterialPackage.get_assay` (`chem.py:383-391`). -/
def assay (p : Package) : Res (List Num) := mapRes (fun x => divN rnd x (pySum rnd p.masses)) p.masses

/-- `MaterialPackage.get_compound_mass_fraction` (`chem.py:414-423`). -/
def compoundFraction (p : Package) (c : Str) : Res Num :=
  match p.compoundMass c with
  | .error e => .error e
  | .ok x => divN rnd x (mass rnd p)

/-- Adding `(compound, mass)` (`chem.py:293-303,574-580`). -/
def addTuple (p : Package) (c : Str) (x : Num) : Res Package :=
  if x.isFloat then
    match p.mat.index c with
    | .error e => .error e
    | .ok i => match p.masses[i]? with
      | none => .error .indexError
      | some y => .ok { p with masses := p.masses.set i (addN rnd y x) }
  else .error .typeError

/-- The loop over the compounds of another package's material (`chem.py:276-287,560-571`): outcome and receiver afterwards. -/
def addLoop (q : Package) : List Str → Package → Res Unit × Package
  | [], p => (.ok (), p)
  | c :: cs, p =>
    if c ∉ p.mat.compounds then (.error .exception, p)
    else match q.compoundMass c with
      | .error e => (.error e, p)
      | .ok x => match addTuple rnd p c x with
        | .error e => (.error e, p)
        | .ok p' => addLoop q cs p'

/-- `MaterialPackage.__add__` (`chem.py:261-308`). -/
def add (p : Package) (a : Arg) : Res Package :=
  match a with
  | .pkg q =>
    if p.mat.ident = q.mat.ident then .ok ⟨p.mat, p.masses ++ q.masses⟩
    else match addLoop rnd q q.mat.compounds p with
      | (.error e, _) => .error e
      | (.ok _, p') => .ok p'
  | .tup c x => addTuple rnd p c x
  | _ => .error .typeError

/-- `MaterialPackage.add_to` (`chem.py:544-584`): outcome and receiver afterwards. -/
def addTo (p : Package) (a : Arg) : Res Unit × Package :=
  match a with
  | .pkg q =>
    if p.mat.ident = q.mat.ident then (.ok (), ⟨p.mat, p.masses ++ q.masses⟩)
    else addLoop rnd q q.mat.compounds p
  | .tup c x => match addTuple rnd p c x with
    | .error e => (.error e, p)
    | .ok p' => (.ok (), p')
  | _ => (.error .typeError, p)

/-- `MaterialPackage.__mul__` (`chem.py:311-336`). -/
def mul (p : Package) (k : Num) : Res Package :=
  if k.isFloat then
    if k.val < 0 then .error .exception else .ok ⟨p.mat, p.masses.map (mulN rnd · k)⟩
  else .error .typeError

/-- `MaterialPackage.extract` (`chem.py:476-541`): the extracted package or the error, and the package afterwards. -/
def extract (p : Package) (a : Arg) : Res Package × Package :=
  match a with
  | .num x =>
    if x.isFloat then
      if x.val > (mass rnd p).val then (.error .exception, p)
      else match divN rnd x (mass rnd p) with
        | .error e => (.error e, p)
        | .ok f => (.ok ⟨p.mat, p.masses.map (mulN rnd · f)⟩, ⟨p.mat, p.masses.map (mulN rnd · (subN rnd (fl 1) f))⟩)
    else (.error .typeError, p)
  | .tup c x =>
    if x.isFloat then
      match p.mat.index c with
      | .error e => (.error e, p)
      | .ok i => match p.masses[i]? with
        | none => (.error .indexError, p)
        | some y =>
          if x.val > y.val then (.error .exception, p)
          else (.ok ⟨p.mat, (List.replicate p.masses.length (fl 0)).set i x⟩, { p with masses := p.masses.set i (subN rnd y x) })
    else (.error .typeError, p)
  | .str c =>
    match p.mat.index c with
    | .error e => (.error e, p)
    | .ok i => match p.masses[i]? with
      | none => (.error .indexError, p)
      | some y => (.ok ⟨p.mat, (p.masses.map (mulN rnd · (fl 0))).set i y⟩, { p with masses := p.masses.set i (fl 0) })
  | _ => (.error .typeError, p)

end Auxi.ChemFloat
