import Verif.Persist

/-!
# What it means that an object survives being written and read

Independent of `jsonpickle` and of the text of the files.
-/
namespace Auxi.Persist.Spec
open Persist

/-- A step from an object to one of its parts: an attribute or key, or a position in a list. -/
inductive Step
  | key (k : Str)
  | pos (i : ℕ)

/-- The part of an object that a step leads to. -/
def child {F : Type} : Step → Py F → Option (Py F)
  | .key k, .dict l => l.lookup k
  | .key k, .inst _ l => l.lookup k
  | .pos i, .list l => l[i]?
  | _, _ => none

/-- What is seen at an object without looking at its parts: its kind, its value, its class, the length of a list. -/
inductive Face (F : Type)
  | none
  | bool (b : Bool)
  | num (x : F)
  | str (s : Str)
  | list (n : ℕ)
  | dict
  | inst (cls : Str)

/-- The face of an object.  Bound methods are not data: they have none. -/
def face {F : Type} : Py F → Option (Face F)
  | .none => some .none
  | .bool b => some (.bool b)
  | .num x => some (.num x)
  | .str s => some (.str s)
  | .list l => some (.list l.length)
  | .dict _ => some .dict
  | .inst c _ => some (.inst c)
  | .method _ => none

/-- What is seen after a sequence of steps. -/
def look {F : Type} : List Step → Py F → Option (Face F)
  | [], o => face o
  | s :: p, o => match child s o with
    | some v => look p v
    | none => none

mutual
/-- A tree of data as Python makes it: no attribute and no key occurs twice, none is reserved by `jsonpickle` (`py/...`), and bound methods occur as attributes only. -/
def Plain {F : Type} : Py F → Prop
  | .none => True
  | .bool _ => True
  | .num _ => True
  | .str _ => True
  | .list l => PlainItems l
  | .dict l => (l.map (·.1)).Nodup ∧ PlainPairs l
  | .inst _ l => (l.map (·.1)).Nodup ∧ PlainAttrs l
  | .method _ => False
/-- The items of a list. -/
def PlainItems {F : Type} : List (Py F) → Prop
  | [] => True
  | v :: l => Plain v ∧ PlainItems l
/-- The entries of a dictionary. -/
def PlainPairs {F : Type} : List (Str × Py F) → Prop
  | [] => True
  | (k, v) :: l => (¬ "py/".toList <+: k) ∧ Plain v ∧ PlainPairs l
/-- The attributes of an instance. -/
def PlainAttrs {F : Type} : List (Str × Py F) → Prop
  | [] => True
  | (k, v) :: l => (¬ "py/".toList <+: k) ∧ ((∃ m, v = .method m) ∨ Plain v) ∧ PlainAttrs l
end

/-- Two phases are the same: all attributes are equal, and the heat capacity records are the same up to their order in the dictionary. -/
structure SamePhase {F : Type} (p q : PhaseObj F) : Prop where
  name : p.name = q.name
  symbol : p.symbol = q.symbol
  Tref : p.Tref = q.Tref
  DHref : p.DHref = q.DHref
  Sref : p.Sref = q.Sref
  mag : p.mag = q.mag
  records : p.records.Perm q.records

/-- Two compounds are the same: all attributes are equal, they have the same phase names, and the phases of each name are the same. -/
structure SameComp {F : Type} (c d : CompObj F) : Prop where
  formula : c.formula = d.formula
  molarMass : c.molarMass = d.molarMass
  reference : c.reference = d.reference
  names : (c.phases.map (·.1)).Perm (d.phases.map (·.1))
  phases : ∀ k p, c.phases.lookup k = some p → ∃ q, d.phases.lookup k = some q ∧ SamePhase p q

/-- The magnetic attributes of a phase are as the class leaves them: a phase whose magnetic methods are bound to zero lacks one of the three magnetic attributes, and the derived constants of a magnetic
phase are the ones computed from `p_mag`. -/
def Settled {F : Type} (N : Numbers F) (o : Py F) : Prop :=
  match magView o with
  | some none => attr "Tc_mag" o = none ∨ attr "beta0_mag" o = none ∨ attr "p_mag" o = none
  | some (some m) => N.derived m.p = some (m.A, m.B, m.D)
  | none => False

/-- `o` is a compound object that holds the data `c`, with settled phases. -/
structure Holds {F : Type} (N : Numbers F) (o : Py F) (c : CompObj F) : Prop where
  plain : Plain o
  view : compView N o = some c
  settled : ∀ l, attr "_phases" o = some (.dict l) → ∀ e ∈ l, Settled N e.2

/-- Several compounds written one after the other to a directory. -/
def writeAll {F : Type} (N : Numbers F) : List (Py F) → List (Str × Str) → Res (List (Str × Str))
  | [], dir => .ok dir
  | o :: l, dir => match writeCompound N dir o with
    | .error e => .error e
    | .ok dir => writeAll N l dir

/-- The last compound in a list with a formula. -/
def lastWith {F : Type} (f : Str) (cs : List (Py F × CompObj F)) : Option (Py F × CompObj F) := cs.reverse.find? (fun x => x.2.formula == f)

/-- The compounds dictionary of the module, with the numbers as real numbers. -/
def values {F : Type} (N : Numbers F) (val : F → ℝ) (db : List (Str × Py F)) : List (Str × ThermoChem.Compound) :=
  db.filterMap (fun e => (compView N e.2).map (fun c => (e.1, c.comp val)))

/-- No two heat capacity records of a phase of the compound have the same upper temperature. -/
def Distinct {F : Type} (val : F → ℝ) (c : CompObj F) : Prop := ∀ e ∈ c.phases, (e.2.records.map (fun r => val r.1)).Nodup

/-- The four properties of a phase. -/
inductive IsProperty : (ThermoChem.Phase → ℝ → Res ℝ) → Prop
  | Cp : IsProperty ThermoChem.Phase.Cp
  | H : IsProperty ThermoChem.Phase.H
  | S : IsProperty ThermoChem.Phase.S
  | G : IsProperty ThermoChem.Phase.G

end Auxi.Persist.Spec
