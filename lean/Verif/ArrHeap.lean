import Verif.Basic

/-!
# Objects with numpy arrays

The packages of `psd.py`, `slurry.py` and `thermo.py` (all in `/repo/auxi/modelling/process/materials`) hold *references* to numpy arrays; some statements change an array in place
(`a[i] = x`), others bind a new array (`self.a = self.a * 0.0`).  This file has what the three have in common; see `Verif.PsdHeap`, `Verif.SlurryHeap` and `Verif.ThermoHeap`.

References are positions in the three lists of `Heap`; nothing is ever removed.  Objects that no variable can reach afterwards (the intermediate sums of `+`) are not registered, but
their arrays are.  `I` is what a material has besides its assays, `X` what a package has besides its material and its array, `α` the type of the numbers.
-/
namespace Auxi.ArrHeap
open Auxi

variable {I X α : Type}

/-- A material (`psd.py:27-100`, `slurry.py:27-138`, `thermo.py:28-152`), its assays as references to arrays. -/
structure MatObj (I : Type) where
  /-- everything but the assays -/
  info : I
  /-- `self.assays` -/
  assays : List (Str × Nat)

/-- A package (`psd.py:232-243`, `slurry.py:321-334`, `thermo.py:389-413`): references to the material and to the array. -/
structure PkgObj (X : Type) where
  /-- `self.material` -/
  mat : Nat
  /-- the attributes that are numbers -/
  extra : X
  /-- `self.size_class_masses`, `self._compound_masses` -/
  arr : Nat
  deriving DecidableEq

/-- The objects of a program (`psd.py`, `slurry.py`, `thermo.py`). -/
structure Heap (I X α : Type) where
  /-- the materials -/
  mats : List (MatObj I)
  /-- the packages -/
  pkgs : List (PkgObj X)
  /-- the arrays -/
  arrays : List (List α)

/-- The contents of an array (`psd.py:394`). -/
def Heap.read (h : Heap I X α) (a : Nat) : List α := h.arrays[a]?.getD []

/-- A new array (`psd.py:164,283,338,377,385`). -/
def Heap.alloc (h : Heap I X α) (l : List α) : Heap I X α × Nat := ({ h with arrays := h.arrays ++ [l] }, h.arrays.length)

/-- An array changed in place (`psd.py:309,476,479,487-488,529`). -/
def Heap.write (h : Heap I X α) (a : Nat) (l : List α) : Heap I X α := { h with arrays := h.arrays.set a l }

/-- A new package object (`psd.py:242-243`). -/
def Heap.register (h : Heap I X α) (p : PkgObj X) : Heap I X α × Nat := ({ h with pkgs := h.pkgs ++ [p] }, h.pkgs.length)

/-- Attributes of a package get other values (`psd.py:385,464,507`, `slurry.py:526-529,654-656,667`, `thermo.py:802-803,824-825,861-864`). -/
def Heap.rebind (h : Heap I X α) (i : Nat) (p : PkgObj X) : Heap I X α := { h with pkgs := h.pkgs.set i p }

/-- What a call gives: the position of a new package, or nothing. -/
abbrev Out := Res (Option Nat)

/-- `clone` (`psd.py:368-377`, `slurry.py:510-519`, `thermo.py:846-853`): the material is shared, the array is copied; the object is registered by the caller. -/
def Heap.cloned (h : Heap I X α) (p : PkgObj X) : Heap I X α × PkgObj X := match h.alloc (h.read p.arr) with
  | (h, a) => (h, ⟨p.mat, p.extra, a⟩)

/-- Registers a new package (`psd.py:242-243`). -/
def finish : Res (PkgObj X) × Heap I X α → Out × Heap I X α
  | (.error e, h) => (.error e, h)
  | (.ok r, h) => match h.register r with
    | (h, i) => (.ok (some i), h)

/-- The caller changes an array, `a[i] = x`. -/
def Heap.setItem (h : Heap I X α) (a i : Nat) (x : α) : Out × Heap I X α :=
  if i < (h.read a).length then (.ok none, h.write a ((h.read a).set i x)) else (.error .indexError, h)

/-- `MaterialPackage(material, ..., array)` (`psd.py:232-243`, `slurry.py:321-334`): the package keeps the caller's array. -/
def Heap.construct (h : Heap I X α) (m : Nat) (x : X) (a : Nat) : Out × Heap I X α :=
  if m < h.mats.length then finish (.ok ⟨m, x, a⟩, h) else (.error .nameError, h)

/-- `add_assay` with an array (`psd.py:166-185`, `slurry.py:247-256`, `thermo.py:289-308`): the material keeps the caller's array.  `size` is the number of entries an assay has. -/
def Heap.addAssay (size : I → Nat) (h : Heap I X α) (m : Nat) (name : Str) (a : Nat) : Out × Heap I X α := match h.mats[m]? with
  | none => (.error .nameError, h)
  | some o =>
    if (h.read a).length ≠ size o.info then (.error .exception, h)
    else if name ∈ o.assays.map (·.1) then (.error .exception, h)
    else (.ok none, { h with mats := h.mats.set m { o with assays := o.assays ++ [(name, a)] } })

end Auxi.ArrHeap
