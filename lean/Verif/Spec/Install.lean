import Verif.Install

/-! # What is installed -/
namespace Auxi.Install.Spec
open Auxi.Install

/-- The name fits the pattern: a star stands for any text, everything else for itself. -/
inductive Fits : Str → Str → Prop
  | nil : Fits [] []
  | star (t p s : Str) (h : Fits p s) : Fits ('*' :: p) (t ++ s)
  | char (c : Char) (p s : Str) (hc : c ≠ '*') (h : Fits p s) : Fits (c :: p) (c :: s)

/-- The name does not begin with a dot. -/
def Visible (n : Str) : Prop := n.head? ≠ some '.'

/-- A module: a directory and a name without dots. -/
def modulePath (d : Path) (n : Str) : Path := d ++ [n ++ ".py".toList]

/-- The names of a path fit those of a pattern, one by one; hidden names only hidden patterns. -/
def PathFits (q : List Str) (r : Path) : Prop := List.Forall₂ (fun p n => Fits p n ∧ (Visible n ∨ ¬ Visible p)) q r

/-- The file is one of a package that is listed: a module in its directory, or named by a pattern for it. -/
def Listed (s : Setup) (f : Path) : Prop :=
  (∃ p ∈ s.packages, ∃ n, f = modulePath p n ∧ Visible (n ++ ".py".toList)) ∨ ∃ p ∈ s.packages, ∃ e ∈ s.data, e.1 = p ∧ ∃ q ∈ e.2, ∃ r, f = p ++ r ∧ PathFits q r

end Auxi.Install.Spec
