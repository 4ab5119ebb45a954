import Verif.ThermoChem

/-!
# What a catalogue of the loaded compounds is
-/
namespace Auxi.Catalogue.Spec
open ThermoChem

/-- Python's order of strings: the first code point that differs decides, and a string comes before its extensions. -/
def Before (s t : Str) : Prop := s.map Char.toNat < t.map Char.toNat

/-- `rows` are the formulas of the loaded compounds with the names of their phases: each once, all in order, none left out. -/
structure IsCatalogue (db : List (Str × Compound)) (rows : List (Str × List Str)) : Prop where
  order : (rows.map (·.1)).Pairwise Before
  phaseOrder : ∀ r ∈ rows, r.2.Pairwise Before
  formulas : ∀ f, f ∈ rows.map (·.1) ↔ ∃ c, db.lookup f = some c
  phases : ∀ r ∈ rows, ∀ c, db.lookup r.1 = some c → ∀ p, p ∈ r.2 ↔ ∃ d, c.phases.lookup p = some d

/-- A row as it is printed. -/
def line (r : Str × List Str) : Str := r.1 ++ ": ".toList ++ List.intercalate ", ".toList r.2

/-- A dictionary of compounds as Python has it: no formula and no name of a phase occurs twice. -/
def Dict (db : List (Str × Compound)) : Prop := (db.map (·.1)).Nodup ∧ ∀ e ∈ db, (e.2.phases.map (·.1)).Nodup

end Auxi.Catalogue.Spec
