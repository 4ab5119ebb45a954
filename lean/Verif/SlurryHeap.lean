import Verif.PsdHeap

/-!
# Model of `slurry.py` with mutable arrays

`/repo/auxi/modelling/process/materials/slurry.py` with references to arrays (`Verif.ArrHeap`); the parts of its text that repeat `psd.py` are in `Verif.PsdHeap`.  The densities
and water fractions of assays are numbers and are part of the material.
-/
namespace Auxi.SlurryHeap
open Auxi Auxi.ArrHeap Auxi.PsdHeap
open Auxi.Psd (F64)

/-- What a material has besides the arrays of its assays (`slurry.py:27-138`). -/
structure Info where
  /-- `self.size_classes` -/
  classes : List ℚ
  /-- `self.solid_densities` -/
  densities : List (Str × ℚ)
  /-- `self.H2O_fractions` -/
  waters : List (Str × ℚ)

/-- The objects of a program that uses `slurry.py`; a package has a solid density and a mass of water (`slurry.py:331-334`). -/
abbrev SHeap := Heap Info (F64 × F64) F64

/-- A package of `slurry.py`. -/
abbrev SPkg := PkgObj (F64 × F64)

/-- `get_mass` (`slurry.py:540-547`). -/
def mass (h : SHeap) (p : SPkg) : F64 := (Psd.sum (h.read p.arr)).add p.extra.2

/-- `self + other` (`slurry.py:361-432`). -/
def plus (h : SHeap) (p : SPkg) (a : HArg) : Out × SHeap := match a with
  | .pkg q => match h.pkgs[q]? with
    | none => (.error .nameError, h)
    | some q =>
      let ms := Psd.sum (h.read p.arr)
      let mo := Psd.sum (h.read q.arr)
      let d := (ms.add mo).div ((ms.div p.extra.1).add (mo.div q.extra.1))
      let w := p.extra.2.add q.extra.2
      if p.mat = q.mat then match Psd.vadd (h.read p.arr) (h.read q.arr) with
        | .error e => (.error e, h)
        | .ok l => match h.alloc l with
          | (h, a) => finish (.ok ⟨p.mat, (d, w), a⟩, h)
      else match h.cloned p with
        | (h, r) => finish (plusLoop Info.classes p q (classes Info.classes h q.mat) { r with extra := (d, w) } h)
  | .strTup _ b x =>
    if b then match h.cloned p with
      | (h, r) => finish (.ok { r with extra := (r.extra.1, r.extra.2.add x) }, h)
    else (.error .typeError, h)
  | .tup c b x => finish (plusTuple Info.classes h p c b x)
  | _ => (.error .typeError, h)

/-- `self * k` (`slurry.py:434-462`). -/
def times (h : SHeap) (p : SPkg) (isFloat : Bool) (k : F64) : Out × SHeap :=
  if isFloat then
    if (F64.fin 0).gt k then (.error .exception, h)
    else match h.alloc ((h.read p.arr).map (·.mul k)) with
      | (h, a) => finish (.ok ⟨p.mat, (p.extra.1, p.extra.2.mul k), a⟩, h)
  else (.error .typeError, h)

/-- `clear` (`slurry.py:521-529`). -/
def clear (h : SHeap) (i : Nat) (p : SPkg) : Out × SHeap := match h.alloc ((h.read p.arr).map (·.mul (.fin 0))) with
  | (h, a) => (.ok none, h.rebind i ⟨p.mat, (.fin 1, .fin 0), a⟩)

/-- `extract` (`slurry.py:612-692`) from the package at position `i`. -/
def extract (h : SHeap) (i : Nat) (p : SPkg) (a : HArg) : Out × SHeap := match a with
  | .num b x =>
    if b then
      if x.gt (mass h p) then (.error .exception, h)
      else
        let f := x.div (mass h p)
        let g := (F64.fin 1).sub f
        match h.alloc ((h.read p.arr).map (·.mul f)) with
        | (h, r) => match h.alloc ((h.read p.arr).map (·.mul g)) with
          | (h, s) => finish (.ok ⟨p.mat, (p.extra.1, p.extra.2.mul f), r⟩, h.rebind i ⟨p.mat, (p.extra.1, p.extra.2.mul g), s⟩)
    else (.error .typeError, h)
  | .strTup _ b x =>
    if b then
      if x.gt p.extra.2 then (.error .exception, h)
      else
        let h := h.rebind i ⟨p.mat, (p.extra.1, p.extra.2.sub x), p.arr⟩
        match h.alloc ((h.read p.arr).map (·.mul (.fin 0))) with
        | (h, r) => finish (.ok ⟨p.mat, (p.extra.1, x), r⟩, h)
    else (.error .typeError, h)
  | .tup c b x => finishArr p.mat (p.extra.1, .fin 0) (extractTuple Info.classes h p c b x)
  | .str v => finishArr p.mat (p.extra.1, p.extra.2.mul (.fin 0)) (extractClass Info.classes h p v)
  | .pkg q => match h.pkgs[q]? with
    | none => (.error .nameError, h)
    | some _ => (.error .typeError, h)
  | .other => (.error .typeError, h)

/-- `create_package` (`slurry.py:281-309`). -/
def createPackage (h : SHeap) (m : Nat) (assay : Option Str) (mass : F64) (normalise : Bool) : Out × SHeap := match h.mats[m]? with
  | none => (.error .nameError, h)
  | some o => match assay with
    | none => match h.alloc (List.replicate o.info.classes.length (.fin 0)) with
      | (h, a) => finish (.ok ⟨m, (.fin 1, .fin 0), a⟩, h)
    | some name =>
      match (if normalise then match o.assays.lookup name with
          | none => .error .keyError
          | some a => .ok (if Psd.sum (h.read a) = .fin 0 then .fin 1 else Psd.sum (h.read a))
        else .ok (.fin 1) : Res F64) with
      | .error e => (.error e, h)
      | .ok t => match Slurry.dictGet o.info.waters name with
        | .error e => (.error e, h)
        | .ok w => match Slurry.dictGet o.info.densities name with
          | .error e => (.error e, h)
          | .ok d => match o.assays.lookup name with
            | none => (.error .keyError, h)
            | some a =>
              let water := mass.mul (.fin w)
              match h.alloc ((h.read a).map fun x => ((mass.sub water).mul x).div t) with
              | (h, b) => finish (.ok ⟨m, (.fin d, water), b⟩, h)

/-- `add_assay` with an array (`slurry.py:230-256`): the numbers are stored first. -/
def addAssay (h : SHeap) (m : Nat) (name : Str) (density water : Option ℚ) (a : Nat) : Out × SHeap := match h.mats[m]? with
  | none => (.error .nameError, h)
  | some o => match density with
    | none => (.error .exception, h)
    | some d =>
      let o := { o with info := { o.info with densities := Slurry.dictSet name d o.info.densities } }
      let h := { h with mats := h.mats.set m o }
      match water with
      | none => (.error .exception, h)
      | some w =>
        let h := { h with mats := h.mats.set m { o with info := { o.info with waters := Slurry.dictSet name w o.info.waters } } }
        h.addAssay (fun i => i.classes.length) m name a

/-- Statements of a program that uses the module.  Names of packages, materials and arrays are positions. -/
inductive Cmd
  /-- `material.create_package(assay, mass, normalise)` -/
  | create (m : Nat) (assay : Option Str) (mass : F64) (normalise : Bool)
  /-- `p.clone()` -/
  | clone (p : Nat)
  /-- `p + a` -/
  | plus (p : Nat) (a : HArg)
  /-- `p * k` -/
  | times (p : Nat) (isFloat : Bool) (k : F64)
  /-- `p.extract(a)` -/
  | extract (p : Nat) (a : HArg)
  /-- `p.clear()` -/
  | clear (p : Nat)
  /-- `numpy.array([x, y, ...])`: the caller makes an array -/
  | array (l : List F64)
  /-- `a[i] = x`: the caller changes an array -/
  | setItem (a i : Nat) (x : F64)
  /-- `MaterialPackage(material, solid_density, H2O_mass, a)` -/
  | construct (m : Nat) (density water : F64) (a : Nat)
  /-- `material.add_assay(name, solid_density, H2O_fraction, a)` -/
  | addAssay (m : Nat) (name : Str) (density water : Option ℚ) (a : Nat)

/-- One statement (`slurry.py`). -/
def step (h : SHeap) (c : Cmd) : Out × SHeap := match c with
  | .create m a mass n => createPackage h m a mass n
  | .clone i => withPkg h i fun p => match h.cloned p with
    | (h, r) => finish (.ok r, h)
  | .plus i a => withPkg h i fun p => plus h p a
  | .times i b k => withPkg h i fun p => times h p b k
  | .extract i a => withPkg h i fun p => extract h i p a
  | .clear i => withPkg h i fun p => clear h i p
  | .array l => (.ok none, (h.alloc l).1)
  | .setItem a i x => h.setItem a i x
  | .construct m d w a => h.construct m (d, w) a
  | .addAssay m name d w a => addAssay h m name d w a

/-- A program (`slurry.py`): the caller catches every exception; the outcome of each statement and the objects afterwards. -/
def run (h : SHeap) : List Cmd → List Out × SHeap
  | [] => ([], h)
  | c :: cs => match step h c with
    | (o, h) => match run h cs with
      | (os, h) => (o :: os, h)

end Auxi.SlurryHeap
