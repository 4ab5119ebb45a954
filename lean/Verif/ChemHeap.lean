import Verif.Chem

/-!
# Model of `chem.py` with mutable lists

`/repo/auxi/modelling/process/materials/chem.py` again, this time with Python's objects: packages and assays hold *references* to lists, some statements change a list in
place (`l[i] += x`, `l += k`), others bind a new list (`self.x = [...]`).  `Verif.Chem` treats packages as values; `Verif.Props.ChemHeap` proves when this is right.

References are positions in the three lists of `Heap`; nothing is ever removed.  Objects that no variable can reach afterwards (the intermediate sums of `+`) are not
registered, but their lists are.
-/
namespace Auxi.ChemHeap
open Auxi Auxi.Chem

/-- `chem.Material` (`chem.py:25-121`) with assays as references to lists. -/
structure MatObj where
  /-- `self.compounds` -/
  compounds : List Str
  /-- `self.assays` -/
  assays : List (Str × Nat)
  /-- `self.elements` -/
  elements : List Str

/-- `chem.MaterialPackage` (`chem.py:236-248`): references to the material and to the list. -/
structure PkgObj where
  /-- `self.material` -/
  mat : Nat
  /-- `self.compound_masses` -/
  masses : Nat
  deriving DecidableEq

/-- The objects of a program (`chem.py`). -/
structure Heap where
  /-- the materials -/
  mats : List MatObj
  /-- the packages -/
  pkgs : List PkgObj
  /-- the lists of numbers -/
  lists : List (List Num)

/-- The contents of a list (`chem.py:248`). -/
def Heap.read (h : Heap) (a : Nat) : List Num := h.lists[a]?.getD []

/-- A new list (`chem.py:176,232,285,372,527`). -/
def Heap.alloc (h : Heap) (l : List Num) : Heap × Nat := ({ h with lists := h.lists ++ [l] }, h.lists.length)

/-- A list changed in place (`chem.py:301,523,535-536,556,580`). -/
def Heap.write (h : Heap) (a : Nat) (l : List Num) : Heap := { h with lists := h.lists.set a l }

/-- A new package object (`chem.py:244-248`). -/
def Heap.register (h : Heap) (p : PkgObj) : Heap × Nat := ({ h with pkgs := h.pkgs ++ [p] }, h.pkgs.length)

/-- `self.compound_masses = ...`: the attribute gets another list (`chem.py:510-511`). -/
def Heap.rebind (h : Heap) (i : Nat) (p : PkgObj) : Heap := { h with pkgs := h.pkgs.set i p }

/-- The compounds of a material (`chem.py:166`). -/
def Heap.compounds (h : Heap) (m : Nat) : List Str := match h.mats[m]? with
  | some o => o.compounds
  | none => []

/-- `get_compound_index` (`chem.py:156-166`). -/
def Heap.index (h : Heap) (m : Nat) (c : Str) : Res Nat := match indexOf (h.compounds m) c with
  | some i => .ok i
  | none => .error .valueError

/-- `get_compound_mass` (`chem.py:402-411`). -/
def Heap.compoundMass (h : Heap) (p : PkgObj) (c : Str) : Res Num := match h.index p.mat c with
  | .error e => .error e
  | .ok i => match (h.read p.masses)[i]? with
    | some x => .ok x
    | none => .error .indexError

/-- What the caller passes to `+`, `add_to` and `extract`: packages by reference. -/
inductive HArg
  /-- another package (or the same) -/
  | pkg (q : Nat)
  /-- a tuple of a string and a number -/
  | tup (c : Str) (x : Num)
  /-- a number -/
  | num (x : Num)
  /-- a string -/
  | str (c : Str)
  /-- anything else -/
  | other

/-- What a call gives: the position of a new package, or nothing. -/
abbrev Out := Res (Option Nat)

/-- `add_to((compound, mass))` (`chem.py:573-580`): the list changes in place. -/
def Heap.addTuple (h : Heap) (p : PkgObj) (c : Str) (x : Num) : Res Unit × Heap :=
  if x.isFloat then match h.index p.mat c with
    | .error e => (.error e, h)
    | .ok i => match (h.read p.masses)[i]? with
      | none => (.error .indexError, h)
      | some y => (.ok (), h.write p.masses ((h.read p.masses).set i (y.add x)))
  else (.error .typeError, h)

/-- The loop of `add_to` over the compounds of another package's material (`chem.py:560-571`). -/
def addToLoop (p q : PkgObj) : List Str → Heap → Res Unit × Heap
  | [], h => (.ok (), h)
  | c :: cs, h =>
    if c ∉ h.compounds p.mat then (.error .exception, h)
    else match h.compoundMass q c with
      | .error e => (.error e, h)
      | .ok x => match h.addTuple p c x with
        | (.error e, h) => (.error e, h)
        | (.ok _, h) => addToLoop p q cs h

/-- `clone` (`chem.py:363-373`): the material is shared, the list is copied; the object is registered by the caller. -/
def Heap.cloned (h : Heap) (p : PkgObj) : Heap × PkgObj := match h.alloc (h.read p.masses) with
  | (h, a) => (h, ⟨p.mat, a⟩)

/-- `self + (compound, mass)` (`chem.py:293-303`): the clone's list changes in place. -/
def Heap.plusTuple (h : Heap) (p : PkgObj) (c : Str) (x : Num) : Res PkgObj × Heap :=
  if x.isFloat then match h.index p.mat c with
    | .error e => (.error e, h)
    | .ok i => match h.cloned p with
      | (h, r) => match (h.read r.masses)[i]? with
        | none => (.error .indexError, h)
        | some y => (.ok r, h.write r.masses ((h.read r.masses).set i (y.add x)))
  else (.error .typeError, h)

/-- The loop of `+` over the compounds of another package's material (`chem.py:276-287`); `result += tuple` is `result = result + tuple`. -/
def plusLoop (p q : PkgObj) : List Str → PkgObj → Heap → Res PkgObj × Heap
  | [], r, h => (.ok r, h)
  | c :: cs, r, h =>
    if c ∉ h.compounds p.mat then (.error .exception, h)
    else match h.compoundMass q c with
      | .error e => (.error e, h)
      | .ok x => match h.plusTuple r c x with
        | (.error e, h) => (.error e, h)
        | (.ok r, h) => plusLoop p q cs r h

/-- Registers a new package (`chem.py:244-248`). -/
def finish : Res PkgObj × Heap → Out × Heap
  | (.error e, h) => (.error e, h)
  | (.ok r, h) => match h.register r with
    | (h, i) => (.ok (some i), h)

/-- `self + other` (`chem.py:261-308`). -/
def Heap.plus (h : Heap) (p : PkgObj) (a : HArg) : Out × Heap := match a with
  | .pkg q => match h.pkgs[q]? with
    | none => (.error .nameError, h)
    | some q =>
      if p.mat = q.mat then match h.alloc (h.read p.masses ++ h.read q.masses) with
        | (h, a) => finish (.ok ⟨p.mat, a⟩, h)
      else match h.cloned p with
        | (h, r) => finish (plusLoop p q (h.compounds q.mat) r h)
  | .tup c x => finish (h.plusTuple p c x)
  | _ => (.error .typeError, h)

/-- `add_to` (`chem.py:544-584`); for packages of one material `+=` extends the list in place. -/
def Heap.addTo (h : Heap) (p : PkgObj) (a : HArg) : Out × Heap :=
  match a with
  | .pkg q => match h.pkgs[q]? with
    | none => (.error .nameError, h)
    | some q =>
      if p.mat = q.mat then (.ok none, h.write p.masses (h.read p.masses ++ h.read q.masses))
      else match addToLoop p q (h.compounds q.mat) h with
        | (.error e, h) => (.error e, h)
        | (.ok _, h) => (.ok none, h)
  | .tup c x => match h.addTuple p c x with
    | (.error e, h) => (.error e, h)
    | (.ok _, h) => (.ok none, h)
  | _ => (.error .typeError, h)

/-- `self * k` (`chem.py:311-336`). -/
def Heap.times (h : Heap) (p : PkgObj) (k : Num) : Res PkgObj × Heap :=
  if k.isFloat then
    if k.val < 0 then (.error .exception, h)
    else match h.alloc ((h.read p.masses).map (·.mul k)) with
      | (h, a) => (.ok ⟨p.mat, a⟩, h)
  else (.error .typeError, h)

/-- `extract` (`chem.py:476-541`) from the package at position `i`: a mass binds a new list, a compound changes the list in place. -/
def Heap.extract (h : Heap) (i : Nat) (p : PkgObj) (a : HArg) : Out × Heap := match a with
  | .num x =>
    if x.isFloat then
      if x.val > (pySum (h.read p.masses)).val then (.error .exception, h)
      else match x.div (pySum (h.read p.masses)) with
        | .error e => (.error e, h)
        | .ok f => match h.alloc ((h.read p.masses).map (·.mul f)) with
          | (h, r) => match h.alloc ((h.read p.masses).map (·.mul ((fl 1).sub f))) with
            | (h, s) => finish (.ok ⟨p.mat, r⟩, h.rebind i ⟨p.mat, s⟩)
    else (.error .typeError, h)
  | .tup c x =>
    if x.isFloat then match h.index p.mat c with
      | .error e => (.error e, h)
      | .ok j => match (h.read p.masses)[j]? with
        | none => (.error .indexError, h)
        | some y =>
          if x.val > y.val then (.error .exception, h)
          else
            let h := h.write p.masses ((h.read p.masses).set j (y.sub x))
            match h.alloc (List.replicate (h.read p.masses).length (fl 0)) with
            | (h, r) => finish (.ok ⟨p.mat, r⟩, h.write r ((h.read r).set j x))
    else (.error .typeError, h)
  | .str c => match h.index p.mat c with
    | .error e => (.error e, h)
    | .ok j => match h.times p (fl 0) with
      | (.error e, h) => (.error e, h)
      | (.ok r, h) => match (h.read p.masses)[j]? with
        | none => (.error .indexError, h)
        | some y =>
          let h := h.write r.masses ((h.read r.masses).set j y)
          finish (.ok r, h.write p.masses ((h.read p.masses).set j (fl 0)))
  | .pkg q => match h.pkgs[q]? with
    | none => (.error .nameError, h)
    | some _ => (.error .typeError, h)
  | .other => (.error .typeError, h)

/-- `create_package` (`chem.py:168-176,212-233`). -/
def Heap.createPackage (h : Heap) (m : Nat) (assay : Option Str) (mass : Num) (normalise : Bool) : Out × Heap := match h.mats[m]? with
  | none => (.error .nameError, h)
  | some o => match assay with
    | none => match h.alloc (List.replicate o.compounds.length (int 0)) with
      | (h, a) => finish (.ok ⟨m, a⟩, h)
    | some name => match o.assays.lookup name with
      | none => (.error .keyError, h)
      | some a => match mapRes (fun x => (mass.mul x).div (if normalise then pySum (h.read a) else fl 1)) (h.read a) with
        | .error e => (.error e, h)
        | .ok ms => match h.alloc ms with
          | (h, b) => finish (.ok ⟨m, b⟩, h)

/-- `add_assay` with a list (`chem.py:178-199`): the material keeps the caller's list. -/
def Heap.addAssay (h : Heap) (m : Nat) (name : Str) (a : Nat) : Out × Heap := match h.mats[m]? with
  | none => (.error .nameError, h)
  | some o =>
    if (h.read a).length ≠ o.compounds.length then (.error .exception, h)
    else if name ∈ o.assays.map (·.1) then (.error .exception, h)
    else (.ok none, { h with mats := h.mats.set m { o with assays := o.assays ++ [(name, a)] } })

/-- Statements of a program that uses the module.  Names of packages, materials and lists are positions. -/
inductive Cmd
  /-- `material.create_package(assay, mass, normalise)` -/
  | create (m : Nat) (assay : Option Str) (mass : Num) (normalise : Bool)
  /-- `p.clone()` -/
  | clone (p : Nat)
  /-- `p + a` -/
  | plus (p : Nat) (a : HArg)
  /-- `p * k` -/
  | times (p : Nat) (k : Num)
  /-- `p.add_to(a)` -/
  | addTo (p : Nat) (a : HArg)
  /-- `p.extract(a)` -/
  | extract (p : Nat) (a : HArg)
  /-- `p.clear()` -/
  | clear (p : Nat)
  /-- `[x, y, ...]`: the caller makes a list -/
  | list (l : List Num)
  /-- `l[i] = x`: the caller changes a list -/
  | setItem (l i : Nat) (x : Num)
  /-- `MaterialPackage(material, l)` -/
  | construct (m l : Nat)
  /-- `material.add_assay(name, l)` -/
  | addAssay (m : Nat) (name : Str) (l : Nat)

/-- One statement (`chem.py`).  `NameError` stands for a name that has no value. -/
def Heap.step (h : Heap) (c : Cmd) : Out × Heap := match c with
  | .create m a mass n => h.createPackage m a mass n
  | .clone p => match h.pkgs[p]? with
    | none => (.error .nameError, h)
    | some p => match h.cloned p with
      | (h, r) => finish (.ok r, h)
  | .plus p a => match h.pkgs[p]? with
    | none => (.error .nameError, h)
    | some p => h.plus p a
  | .times p k => match h.pkgs[p]? with
    | none => (.error .nameError, h)
    | some p => finish (h.times p k)
  | .addTo p a => match h.pkgs[p]? with
    | none => (.error .nameError, h)
    | some p => h.addTo p a
  | .extract i a => match h.pkgs[i]? with
    | none => (.error .nameError, h)
    | some p => h.extract i p a
  | .clear p => match h.pkgs[p]? with
    | none => (.error .nameError, h)
    | some _ => (.error .typeError, h)
  | .list l => (.ok none, (h.alloc l).1)
  | .setItem a i x => if i < (h.read a).length then (.ok none, h.write a ((h.read a).set i x)) else (.error .indexError, h)
  | .construct m a => if m < h.mats.length then finish (.ok ⟨m, a⟩, h) else (.error .nameError, h)
  | .addAssay m name a => h.addAssay m name a

/-- A program (`chem.py`): the caller catches every exception; the outcome of each statement and the objects afterwards. -/
def Heap.run (h : Heap) : List Cmd → List Out × Heap
  | [] => ([], h)
  | c :: cs => match h.step c with
    | (o, h) => match h.run cs with
      | (os, h) => (o :: os, h)

end Auxi.ChemHeap
