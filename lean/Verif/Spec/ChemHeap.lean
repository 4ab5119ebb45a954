import Verif.ChemHeap

/-!
# Specification for C115: packages as values

What a user expects: a package is a material and masses of its own.  `Store` is a program's state in which no two things share anything; `Store.step` says what each statement
does to it with the functions of `Verif.Chem`, which know nothing of references.
-/
namespace Auxi.ChemHeap.Spec
open Auxi Auxi.Chem Auxi.ChemHeap

/-- Materials and packages as values; a package knows its material by position. -/
structure Store where
  /-- the materials -/
  mats : List Material
  /-- the packages: material and masses -/
  pkgs : List (Nat × List Num)

/-- The package at a position. -/
def Store.pkg (s : Store) (i : Nat) : Option Package := match s.pkgs[i]? with
  | none => none
  | some (m, l) => match s.mats[m]? with
    | none => none
    | some M => some ⟨M, l⟩

/-- A new package. -/
def Store.push (s : Store) (m : Nat) (l : List Num) : Store := { s with pkgs := s.pkgs ++ [(m, l)] }

/-- A package has got other masses. -/
def Store.update (s : Store) (i : Nat) (m : Nat) (l : List Num) : Store := { s with pkgs := s.pkgs.set i (m, l) }

/-- An argument as a value. -/
def Store.arg (s : Store) : HArg → Option Arg
  | .pkg q => (s.pkg q).map .pkg
  | .tup c x => some (.tup c x)
  | .num x => some (.num x)
  | .str c => some (.str c)
  | .other => some .other

/-- A result that is a new package. -/
def Store.result (s : Store) : Res Package → Out × Store
  | .error e => (.error e, s)
  | .ok r => (.ok (some s.pkgs.length), s.push r.mat.ident r.masses)

/-- What each statement should do; `none` for the statements about the caller's own lists. -/
def Store.step (s : Store) : Cmd → Option (Out × Store)
  | .create m a mass n => some (match s.mats[m]? with
    | none => (.error .nameError, s)
    | some M => s.result (M.createPackage a mass n))
  | .clone p => some (match s.pkg p with
    | none => (.error .nameError, s)
    | some P => s.result (.ok P))
  | .plus p a => some (match s.pkg p, s.arg a with
    | some P, some A => s.result (P.add A)
    | _, _ => (.error .nameError, s))
  | .times p k => some (match s.pkg p with
    | none => (.error .nameError, s)
    | some P => s.result (P.mul k))
  | .addTo p a => some (match s.pkg p, s.arg a with
    | some P, some A => match P.addTo A with
      | (.ok _, P') => (.ok none, s.update p P.mat.ident P'.masses)
      | (.error e, P') => (.error e, s.update p P.mat.ident P'.masses)
    | _, _ => (.error .nameError, s))
  | .extract p a => some (match s.pkg p, s.arg a with
    | some P, some A => match P.extract A with
      | (r, P') => (s.update p P.mat.ident P'.masses).result r
    | _, _ => (.error .nameError, s))
  | .clear p => some (match s.pkg p with
    | none => (.error .nameError, s)
    | some P => match P.clear with
      | (.ok _, P') => (.ok none, s.update p P.mat.ident P'.masses)
      | (.error e, P') => (.error e, s.update p P.mat.ident P'.masses))
  | _ => none

/-- A program of package operations. -/
def Store.run (s : Store) : List Cmd → Option (List Out × Store)
  | [] => some ([], s)
  | c :: cs => match s.step c with
    | none => none
    | some (o, s) => match s.run cs with
      | none => none
      | some (os, s) => some (o :: os, s)

/-- What the objects of a program mean. -/
def view (h : Heap) : Store where
  mats := h.mats.mapIdx fun i o => ⟨i, o.compounds, o.assays.map fun e => (e.1, h.read e.2), o.elements⟩
  pkgs := h.pkgs.map fun p => (p.mat, h.read p.masses)

/-- The lists that packages hold. -/
def pkgLists (h : Heap) : List Nat := h.pkgs.map (·.masses)

/-- The lists that assays hold. -/
def assayLists (h : Heap) : List Nat := h.mats.flatMap fun o => o.assays.map (·.2)

/-- No two packages hold the same list, and none holds the list of an assay; nothing dangles. -/
structure Separate (h : Heap) : Prop where
  /-- every package has its own list -/
  own : (pkgLists h).Nodup
  /-- not that of an assay -/
  apart : ∀ a ∈ pkgLists h, a ∉ assayLists h
  /-- lists of packages exist -/
  lists : ∀ a ∈ pkgLists h, a < h.lists.length
  /-- lists of assays exist -/
  assays : ∀ a ∈ assayLists h, a < h.lists.length
  /-- materials of packages exist -/
  mats : ∀ p ∈ h.pkgs, p.mat < h.mats.length

end Auxi.ChemHeap.Spec
