import Verif.ArrHeap
import Verif.Slurry

/-!
# Models of `psd.py` and `slurry.py` with mutable arrays

`/repo/auxi/modelling/process/materials/psd.py` and `slurry.py` again, this time with references to arrays (`Verif.ArrHeap`).  `Verif.Psd` and `Verif.Slurry` treat packages as
values; `Verif.Props.PsdHeap` proves when this is right.  Simplifications as there; arrays are of floating point type (an array of `int`s would cut fractions when changed in place).

The first part is text that the two files share: `cls` gives the size classes of a material, `X` is `Unit` for `psd.py` and the solid density and the mass of water for `slurry.py`.
-/
namespace Auxi.PsdHeap
open Auxi Auxi.ArrHeap Auxi.Psd

section shared
variable {I X : Type} (cls : I → List ℚ)

/-- The size classes of a material (`psd.py:154`, `slurry.py:204`). -/
def classes (h : Heap I X F64) (m : Nat) : List ℚ := match h.mats[m]? with
  | some o => cls o.info
  | none => []

/-- `get_size_class_index` (`psd.py:144-154`, `slurry.py:195-204`). -/
def index (h : Heap I X F64) (m : Nat) (c : ℚ) : Res Nat := match indexOf (classes cls h m) c with
  | some i => .ok i
  | none => .error .valueError

/-- `get_size_class_mass` (`psd.py:405-416`, `slurry.py:558-569`). -/
def classMass (h : Heap I X F64) (p : PkgObj X) (c : ℚ) : Res F64 := match index cls h p.mat c with
  | .error e => .error e
  | .ok i => match (h.read p.arr)[i]? with
    | some x => .ok x
    | none => .error .indexError

/-- `self + (size class, mass)` (`psd.py:300-311`, `slurry.py:417-428`): the clone's array changes in place. -/
def plusTuple (h : Heap I X F64) (p : PkgObj X) (c : ℚ) (isFloat : Bool) (x : F64) : Res (PkgObj X) × Heap I X F64 :=
  if isFloat then match index cls h p.mat c with
    | .error e => (.error e, h)
    | .ok i => match h.cloned p with
      | (h, r) => match (h.read r.arr)[i]? with
        | none => (.error .indexError, h)
        | some y => (.ok r, h.write r.arr ((h.read r.arr).set i (y.add x)))
  else (.error .typeError, h)

/-- The loop of `+` over the size classes of another package's material (`psd.py:286-298`, `slurry.py:394-405`). -/
def plusLoop (p q : PkgObj X) : List ℚ → PkgObj X → Heap I X F64 → Res (PkgObj X) × Heap I X F64
  | [], r, h => (.ok r, h)
  | c :: cs, r, h =>
    if c ∉ classes cls h p.mat then (.error .typeError, h)
    else match classMass cls h q c with
      | .error e => (.error e, h)
      | .ok x => match plusTuple cls h r c true x with
        | (.error e, h) => (.error e, h)
        | (.ok r, h) => plusLoop p q cs r h

/-- `extract((size class, mass))` (`psd.py:468-482`, `slurry.py:670-684`): the receiver's array changes in place; the array of the result. -/
def extractTuple (h : Heap I X F64) (p : PkgObj X) (c : ℚ) (isFloat : Bool) (x : F64) : Res Nat × Heap I X F64 :=
  if isFloat then match index cls h p.mat c with
    | .error e => (.error e, h)
    | .ok i => match (h.read p.arr)[i]? with
      | none => (.error .indexError, h)
      | some y =>
        if x.gt y then (.error .exception, h)
        else
          let h := h.write p.arr ((h.read p.arr).set i (y.sub x))
          match h.alloc ((h.read p.arr).map (·.mul (.fin 0))) with
          | (h, r) => (.ok r, h.write r ((h.read r).set i x))
  else (.error .typeError, h)

/-- `extract(text)` (`psd.py:485-489`, `slurry.py:687-692`), given `float(text)`: the receiver's array changes in place; the array of the result. -/
def extractClass (h : Heap I X F64) (p : PkgObj X) (v : Option ℚ) : Res Nat × Heap I X F64 := match v with
  | none => (.error .valueError, h)
  | some c => match index cls h p.mat c with
    | .error e => (.error e, h)
    | .ok i => match h.alloc ((h.read p.arr).map (·.mul (.fin 0))) with
      | (h, r) => match (h.read p.arr)[i]? with
        | none => (.error .indexError, h)
        | some y =>
          let h := h.write r ((h.read r).set i y)
          (.ok r, h.write p.arr ((h.read p.arr).set i (.fin 0)))

/-- Registers a new package with the given array (`psd.py:480,489`). -/
def finishArr (m : Nat) (x : X) : Res Nat × Heap I X F64 → Out × Heap I X F64
  | (.error e, h) => (.error e, h)
  | (.ok a, h) => finish (.ok ⟨m, x, a⟩, h)

end shared

/-- What the caller passes to `+`, `add_to` and `extract`: packages by reference. -/
inductive HArg
  /-- another package (or the same) -/
  | pkg (q : Nat)
  /-- a tuple of a `float` and a number -/
  | tup (c : ℚ) (isFloat : Bool) (x : F64)
  /-- a tuple of a string and a number -/
  | strTup (s : Str) (isFloat : Bool) (x : F64)
  /-- a number -/
  | num (isFloat : Bool) (x : F64)
  /-- a string, given by the result of `float(text)` -/
  | str (value : Option ℚ)
  /-- anything else -/
  | other

/-! ## `psd.py` -/

/-- The objects of a program that uses `psd.py`; a material has its size classes. -/
abbrev PHeap := Heap (List ℚ) Unit F64

/-- A package of `psd.py`. -/
abbrev PPkg := PkgObj Unit

/-- `add_to((size class, mass))` (`psd.py:521-530`): the array changes in place. -/
def addTuple (h : PHeap) (p : PPkg) (c : ℚ) (isFloat : Bool) (x : F64) : Res Unit × PHeap :=
  if isFloat then match index id h p.mat c with
    | .error e => (.error e, h)
    | .ok i => match (h.read p.arr)[i]? with
      | none => (.error .indexError, h)
      | some y => (.ok (), h.write p.arr ((h.read p.arr).set i (y.add x)))
  else (.error .typeError, h)

/-- The loop of `add_to` over the size classes of another package's material (`psd.py:509-519`). -/
def addToLoop (p q : PPkg) : List ℚ → PHeap → Res Unit × PHeap
  | [], h => (.ok (), h)
  | c :: cs, h =>
    if c ∉ classes id h p.mat then (.error .typeError, h)
    else match classMass id h q c with
      | .error e => (.error e, h)
      | .ok x => match addTuple h p c true x with
        | (.error e, h) => (.error e, h)
        | (.ok _, h) => addToLoop p q cs h

/-- `self + other` (`psd.py:263-315`). -/
def plus (h : PHeap) (p : PPkg) (a : HArg) : Out × PHeap := match a with
  | .pkg q => match h.pkgs[q]? with
    | none => (.error .nameError, h)
    | some q =>
      if p.mat = q.mat then match vadd (h.read p.arr) (h.read q.arr) with
        | .error e => (.error e, h)
        | .ok l => match h.alloc l with
          | (h, a) => finish (.ok ⟨p.mat, (), a⟩, h)
      else match h.cloned p with
        | (h, r) => finish (plusLoop id p q (classes id h q.mat) r h)
  | .tup c b x => finish (plusTuple id h p c b x)
  | _ => (.error .typeError, h)

/-- `add_to` (`psd.py:496-534`) to the package at position `i`; for packages of one material the attribute gets a new array. -/
def addTo (h : PHeap) (i : Nat) (p : PPkg) (a : HArg) : Out × PHeap := match a with
  | .pkg q => match h.pkgs[q]? with
    | none => (.error .nameError, h)
    | some q =>
      if p.mat = q.mat then match vadd (h.read p.arr) (h.read q.arr) with
        | .error e => (.error e, h)
        | .ok l => match h.alloc l with
          | (h, a) => (.ok none, h.rebind i ⟨p.mat, (), a⟩)
      else match addToLoop p q (classes id h q.mat) h with
        | (.error e, h) => (.error e, h)
        | (.ok _, h) => (.ok none, h)
  | .tup c b x => match addTuple h p c b x with
    | (.error e, h) => (.error e, h)
    | (.ok _, h) => (.ok none, h)
  | _ => (.error .typeError, h)

/-- `self * k` (`psd.py:317-343`). -/
def times (h : PHeap) (p : PPkg) (isFloat : Bool) (k : F64) : Out × PHeap :=
  if isFloat then
    if (F64.fin 0).gt k then (.error .exception, h)
    else match h.alloc ((h.read p.arr).map (·.mul k)) with
      | (h, a) => finish (.ok ⟨p.mat, (), a⟩, h)
  else (.error .typeError, h)

/-- `clear` (`psd.py:380-385`): the attribute gets a new array. -/
def clear (h : PHeap) (i : Nat) (p : PPkg) : Out × PHeap := match h.alloc ((h.read p.arr).map (·.mul (.fin 0))) with
  | (h, a) => (.ok none, h.rebind i ⟨p.mat, (), a⟩)

/-- `extract` (`psd.py:431-493`) from the package at position `i`. -/
def extract (h : PHeap) (i : Nat) (p : PPkg) (a : HArg) : Out × PHeap := match a with
  | .num b x =>
    if b then
      if x.gt (sum (h.read p.arr)) then (.error .exception, h)
      else
        let f := x.div (sum (h.read p.arr))
        match h.alloc ((h.read p.arr).map (·.mul f)) with
        | (h, r) => match h.alloc ((h.read p.arr).map (·.mul ((F64.fin 1).sub f))) with
          | (h, s) => finish (.ok ⟨p.mat, (), r⟩, h.rebind i ⟨p.mat, (), s⟩)
    else (.error .typeError, h)
  | .tup c b x => finishArr p.mat () (extractTuple id h p c b x)
  | .str v => finishArr p.mat () (extractClass id h p v)
  | .pkg q => match h.pkgs[q]? with
    | none => (.error .nameError, h)
    | some _ => (.error .typeError, h)
  | _ => (.error .typeError, h)

/-- `create_package` (`psd.py:156-164,198-218`). -/
def createPackage (h : PHeap) (m : Nat) (assay : Option Str) (mass : F64) (normalise : Bool) : Out × PHeap := match h.mats[m]? with
  | none => (.error .nameError, h)
  | some o => match assay with
    | none => match h.alloc (List.replicate o.info.length (.fin 0)) with
      | (h, a) => finish (.ok ⟨m, (), a⟩, h)
    | some name => match o.assays.lookup name with
      | none => (.error .keyError, h)
      | some a => match h.alloc ((h.read a).map fun x => (mass.mul x).div (if normalise then sum (h.read a) else .fin 1)) with
        | (h, b) => finish (.ok ⟨m, (), b⟩, h)

/-- Statements of a program that uses the module.  Names of packages, materials and arrays are positions. -/
inductive Cmd
  /-- `material.create_package(assay, mass, normalise)` -/
  | create (m : Nat) (assay : Option Str) (mass : F64) (normalise : Bool)
  /-- `p.clone()` -/
  | clone (p : Nat)
  /-- `p + a` -/
  | plus (p : Nat) (a : HArg)
  /-- `p * k` -/
  | times (p : Nat) (isFloat : Bool) (k : F64)
  /-- `p.add_to(a)` -/
  | addTo (p : Nat) (a : HArg)
  /-- `p.extract(a)` -/
  | extract (p : Nat) (a : HArg)
  /-- `p.clear()` -/
  | clear (p : Nat)
  /-- `numpy.array([x, y, ...])`: the caller makes an array -/
  | array (l : List F64)
  /-- `a[i] = x`: the caller changes an array -/
  | setItem (a i : Nat) (x : F64)
  /-- `MaterialPackage(material, a)` -/
  | construct (m a : Nat)
  /-- `material.add_assay(name, a)` -/
  | addAssay (m : Nat) (name : Str) (a : Nat)

/-- The package with a name (`psd.py`); `NameError` stands for a name that has no value. -/
def withPkg {I X : Type} (h : Heap I X F64) (i : Nat) (f : PkgObj X → Out × Heap I X F64) : Out × Heap I X F64 := match h.pkgs[i]? with
  | none => (.error .nameError, h)
  | some p => f p

/-- One statement (`psd.py`). -/
def step (h : PHeap) (c : Cmd) : Out × PHeap := match c with
  | .create m a mass n => createPackage h m a mass n
  | .clone i => withPkg h i fun p => match h.cloned p with
    | (h, r) => finish (.ok r, h)
  | .plus i a => withPkg h i fun p => plus h p a
  | .times i b k => withPkg h i fun p => times h p b k
  | .addTo i a => withPkg h i fun p => addTo h i p a
  | .extract i a => withPkg h i fun p => extract h i p a
  | .clear i => withPkg h i fun p => clear h i p
  | .array l => (.ok none, (h.alloc l).1)
  | .setItem a i x => h.setItem a i x
  | .construct m a => h.construct m () a
  | .addAssay m name a => h.addAssay List.length m name a

/-- A program (`psd.py`): the caller catches every exception; the outcome of each statement and the objects afterwards. -/
def run (h : PHeap) : List Cmd → List Out × PHeap
  | [] => ([], h)
  | c :: cs => match step h c with
    | (o, h) => match run h cs with
      | (os, h) => (o :: os, h)

end Auxi.PsdHeap
