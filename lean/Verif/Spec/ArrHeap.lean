import Verif.ArrHeap

/-!
# Specification for C119 and C120: packages as values

What a user expects: a package is a material, some numbers and an array of its own.  `Store` is a program's state in which no two things share anything.
-/
namespace Auxi.ArrHeap.Spec
open Auxi Auxi.ArrHeap

variable {I X α : Type}

/-- Materials and packages as values; a package knows its material by position. -/
structure Store (I X α : Type) where
  /-- the materials -/
  mats : List (I × List (Str × List α))
  /-- the packages: material, numbers and array -/
  pkgs : List (Nat × X × List α)

/-- A new package. -/
def Store.push (s : Store I X α) (m : Nat) (x : X) (l : List α) : Store I X α := { s with pkgs := s.pkgs ++ [(m, x, l)] }

/-- A package has got other contents. -/
def Store.update (s : Store I X α) (i : Nat) (m : Nat) (x : X) (l : List α) : Store I X α := { s with pkgs := s.pkgs.set i (m, x, l) }

/-- What the objects of a program mean. -/
def view (h : Heap I X α) : Store I X α where
  mats := h.mats.map fun o => (o.info, o.assays.map fun e => (e.1, h.read e.2))
  pkgs := h.pkgs.map fun p => (p.mat, p.extra, h.read p.arr)

/-- The arrays that packages hold. -/
def pkgArrays (h : Heap I X α) : List Nat := h.pkgs.map (·.arr)

/-- The arrays that assays hold. -/
def assayArrays (h : Heap I X α) : List Nat := h.mats.flatMap fun o => o.assays.map (·.2)

/-- No two packages hold the same array, and none holds the array of an assay; nothing dangles. -/
structure Separate (h : Heap I X α) : Prop where
  /-- every package has its own array -/
  own : (pkgArrays h).Nodup
  /-- not that of an assay -/
  apart : ∀ a ∈ pkgArrays h, a ∉ assayArrays h
  /-- arrays of packages exist -/
  arrays : ∀ a ∈ pkgArrays h, a < h.arrays.length
  /-- arrays of assays exist -/
  assays : ∀ a ∈ assayArrays h, a < h.arrays.length
  /-- materials of packages exist -/
  mats : ∀ p ∈ h.pkgs, p.mat < h.mats.length

/-- The material, the numbers and the array of a package. -/
def contents (h : Heap I X α) (j : Nat) : Option (Nat × X × List α) := match h.pkgs[j]? with
  | none => none
  | some p => some (p.mat, p.extra, h.read p.arr)

/-- The array of an assay. -/
def assayOf (h : Heap I X α) (m : Nat) (name : Str) : Option (List α) := match h.mats[m]? with
  | none => none
  | some o => match o.assays.lookup name with
    | none => none
    | some a => some (h.read a)

end Auxi.ArrHeap.Spec
