import Verif.Paths
import Verif.Spec.Ledger

/-! # Specification vocabulary for C142: walking directories by the components of a path -/
namespace Auxi.Paths.Spec
open Auxi Auxi.Ledger.Spec

/-- Going from a directory (its names from the root) along one component: `""` and `"."` stay, `".."` goes to the parent (the root is its own parent), a name goes down. -/
def go (dir : List Str) (c : Str) : List Str :=
  if c = [] then dir else if c = ".".toList then dir else if c = "..".toList then dir.dropLast else dir ++ [c]

/-- Going along all components of a path, from a directory. -/
def along (dir : List Str) (p : Str) : List Str := (segments p).foldl go dir

/-- The directory that contains the file at an absolute path. -/
def directoryOf (file : Str) : List Str := ((segments file).dropLast).foldl go []

/-- The directory that contains the file at a path taken from the directory `dir`. -/
def directoryFrom (dir : List Str) (file : Str) : List Str := ((segments file).dropLast).foldl go dir

/-- The text of the absolute path with these names. -/
def absolute (names : List Str) : Str := '/' :: joinSlash names

/-- An absolute path: one slash at its start (POSIX leaves the meaning of two open, and `normpath` keeps two). -/
def Rooted (p : Str) : Prop := ∃ r, p = '/' :: r ∧ r.head? ≠ some '/'

/-- A path that starts with two slashes and not with three. -/
def TwoSlashes (p : Str) : Prop := ∃ r, p = '/' :: '/' :: r ∧ r.head? ≠ some '/'

/-- No component is empty, `"."` or `".."`, or contains a slash. -/
def Plain (l : List Str) : Prop := ∀ n ∈ l, n ≠ [] ∧ n ≠ ['.'] ∧ n ≠ ['.', '.'] ∧ '/' ∉ n

/-- No component of a path goes to the parent. -/
def NoParent (p : Str) : Prop := "..".toList ∉ segments p

end Auxi.Paths.Spec
