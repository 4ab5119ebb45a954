import Verif.Chem

/-!
# Specification vocabulary for chem materials and packages
-/
namespace Auxi.Chem.Spec
open Auxi.Chem

/-- The mass of a compound as the API reports it, as a number; 0 if the call fails. -/
def content (p : Package) (c : Str) : ℚ :=
  match p.compoundMass c with
  | .ok x => x.val
  | .error _ => 0

/-- A material as read from a file that lists no compound twice: its elements are those of its compounds, each once, in some order. -/
structure MatOK (m : Material) : Prop where
  distinct : m.compounds.Nodup
  elements : ∃ l, Stoich.elements m.compounds = .ok l ∧ l.Perm m.elements

/-- One mass per compound. -/
def PkgOK (p : Package) : Prop := p.masses.length = p.mat.compounds.length

/-- No negative masses. -/
def NonNeg (p : Package) : Prop := ∀ x ∈ p.masses, 0 ≤ x.val

/-- The mass fraction of an element in a compound as the API reports it; 0 if the call fails. -/
def share (c e : Str) : ℚ :=
  match Stoich.elementMassFraction c e with
  | .ok f => f
  | .error _ => 0

/-- The mass of an element in a package: over all compounds, compound mass times element fraction. -/
def elementContent (p : Package) (e : Str) : ℚ := (p.mat.compounds.map (fun c => content p c * share c e)).sum

end Auxi.Chem.Spec
