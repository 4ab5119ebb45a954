import Mathlib.Data.Nat.Digits.Defs
import Verif.Stoich

/-!
# Specification vocabulary for chemical formulae

Which texts are formulae, how a formula is written, and which atoms it contains.  Only the *type* of syntax trees and the table of
atomic masses come from the model.
-/
namespace Auxi.Stoich.Spec
open Auxi.Stoich

/-- A capital letter. -/
def Upper (c : Char) : Prop := 'A' ≤ c ∧ c ≤ 'Z'
/-- A small letter. -/
def Lower (c : Char) : Prop := 'a' ≤ c ∧ c ≤ 'z'
/-- A decimal digit. -/
def Digit (c : Char) : Prop := '0' ≤ c ∧ c ≤ '9'

/-- An element symbol: a capital followed by small letters. -/
def Symbol (s : Str) : Prop := ∃ c t, s = c :: t ∧ Upper c ∧ ∀ d ∈ t, Lower d
/-- A number: one digit or more. -/
def Number (s : Str) : Prop := s ≠ [] ∧ ∀ d ∈ s, Digit d
/-- A phase name: letters and digits, at least one. -/
def PhaseName (s : Str) : Prop := s ≠ [] ∧ ∀ d ∈ s, Upper d ∨ Lower d ∨ Digit d

mutual
/-- A properly built part: symbols are symbols, numbers are numbers, groups are not empty. -/
def PartOK : Part → Prop
  | .elem s => Symbol s
  | .elemN s d => Symbol s ∧ Number d
  | .grp b n => b ≠ [] ∧ PartsOK b ∧ ∀ d, n = some d → Number d
/-- Properly built parts. -/
def PartsOK : List Part → Prop
  | [] => True
  | p :: ps => PartOK p ∧ PartsOK ps
end

/-- A properly built formula. -/
def TreeOK (t : Tree) : Prop :=
  (t.group ≠ [] ∧ PartsOK t.group) ∧
  (∀ n b, t.dotted = some (n, b) → b ≠ [] ∧ PartsOK b ∧ ∀ d, n = some d → Number d) ∧
  (∀ p, t.phase = some p → PhaseName p)

mutual
/-- How a part is written: `Fe`, `O3`, `(OH)2`. -/
def partText : Part → Str
  | .elem s => s
  | .elemN s d => s ++ d
  | .grp b n => '(' :: (partsText b ++ ')' :: n.getD [])
/-- Parts are written one after the other. -/
def partsText : List Part → Str
  | [] => []
  | p :: ps => partText p ++ partsText ps
end

/-- How a dotted group is written: `.2H2O`; nothing if absent. -/
def dottedText : Option (Option Str × List Part) → Str
  | none => []
  | some (n, b) => '.' :: (n.getD [] ++ partsText b)
/-- How the phase is written: `[S1]`; nothing if absent. -/
def phaseText : Option Str → Str
  | none => []
  | some p => '[' :: (p ++ [']'])
/-- How a formula is written. -/
def text (t : Tree) : Str := partsText t.group ++ (dottedText t.dotted ++ phaseText t.phase)

/-- The number a text of decimal digits stands for. -/
def value (d : Str) : ℕ := Nat.ofDigits 10 (d.reverse.map (fun c => c.toNat - 48))
/-- The number of copies: an absent number means one. -/
def copies : Option Str → ℕ
  | none => 1
  | some d => value d

mutual
/-- All atoms of a part, written out. -/
def partAtoms : Part → List Str
  | .elem s => [s]
  | .elemN s d => List.replicate (value d) s
  | .grp b n => (List.replicate (copies n) (partsAtoms b)).flatten
/-- All atoms of some parts. -/
def partsAtoms : List Part → List Str
  | [] => []
  | p :: ps => partAtoms p ++ partsAtoms ps
end

/-- All atoms of a formula, one entry per atom. -/
def atoms (t : Tree) : List Str :=
  partsAtoms t.group ++ (match t.dotted with
    | none => []
    | some (n, b) => (List.replicate (copies n) (partsAtoms b)).flatten)

mutual
/-- The symbols written in a part. -/
def partSymbols : Part → List Str
  | .elem s => [s]
  | .elemN s _ => [s]
  | .grp b _ => partsSymbols b
/-- The symbols written in parts. -/
def partsSymbols : List Part → List Str
  | [] => []
  | p :: ps => partSymbols p ++ partsSymbols ps
end
/-- The symbols written in a formula. -/
def symbols (t : Tree) : List Str :=
  partsSymbols t.group ++ (match t.dotted with | none => [] | some (_, b) => partsSymbols b)

mutual
/-- No group carries the number zero. -/
def NoZero : Part → Prop
  | .elem _ => True
  | .elemN _ _ => True
  | .grp b n => copies n ≠ 0 ∧ NoZeros b
/-- No group among the parts carries the number zero. -/
def NoZeros : List Part → Prop
  | [] => True
  | p :: ps => NoZero p ∧ NoZeros ps
end
/-- No group of the formula carries the number zero (elements may). -/
def NoZeroGroup (t : Tree) : Prop :=
  NoZeros t.group ∧ ∀ n b, t.dotted = some (n, b) → copies n ≠ 0 ∧ NoZeros b

/-- The atomic mass of a symbol in the periodic table of the package (0 for an unknown symbol). -/
def massOf (sym : Str) : ℚ := (atomicMass sym).getD 0
/-- The symbol is in the periodic table of the package. -/
def Known (sym : Str) : Prop := ∃ e ∈ elementTable, e.1.toList = sym

/-- Blank text. -/
def Blank (s : Str) : Prop := ∀ c ∈ s, isSpace c = true

/-- The text is a formula over known elements. -/
def IsFormula (s : Str) : Prop := ∃ t, TreeOK t ∧ text t = s ∧ ∀ e ∈ symbols t, Known e

end Auxi.Stoich.Spec
