import Verif.Thermo
import Verif.Spec.Chem

/-!
# Specification vocabulary for thermo materials and packages
-/
namespace Auxi.Thermo.Spec
open Auxi.Thermo

/-- The mass of a compound in a package as the API reports it; 0 if the call fails or the value is not finite. -/
noncomputable def content (p : Package) (c : Str) : ℝ :=
  match p.compoundMass c with
  | .ok (some x) => x
  | _ => 0

/-- The enthalpy of one kilogram of a compound at a temperature as the thermochemistry module reports it; 0 if the call fails. -/
noncomputable def unitH (db : Db) (c : Str) (T : ℝ) : ℝ :=
  match ThermoChem.H db c T 1 with
  | .ok h => h
  | .error _ => 0

/-- The enthalpy that the contents of a package have at a temperature: over all its compounds, mass times specific enthalpy. -/
noncomputable def enthalpyAt (db : Db) (p : Package) (T : ℝ) : ℝ := (p.mat.compounds.map (fun c => content p c * unitH db c T)).sum

/-- The thermochemical data of every compound of the material are loaded. -/
def Known (db : Db) (m : Material) : Prop := ∀ c ∈ m.compounds, ∃ h, ThermoChem.H db c 25 1 = .ok h

/-- An ordinary package: of a material with at least one compound and none listed twice, not coal, one finite mass per compound, a finite temperature. -/
structure Sound (p : Package) : Prop where
  some_compound : p.mat.compounds ≠ []
  distinct : p.mat.compounds.Nodup
  finite : ∃ ms : List ℝ, p.masses = ms.map some ∧ ms.length = p.mat.compounds.length
  temperature : ∃ t : ℝ, p.T = some t
  not_coal : p.isCoal = false

/-- No negative masses. -/
def NonNeg (p : Package) : Prop := ∀ c, 0 ≤ content p c

/-- The total mass of the contents. -/
noncomputable def totalMass (p : Package) : ℝ := (p.mat.compounds.map (content p)).sum

/-- The stored enthalpy is that of the contents at the stored temperature. -/
def Consistent (db : Db) (p : Package) : Prop := ∃ t : ℝ, p.T = some t ∧ p.H = some (enthalpyAt db p t)

/-- What mixing must deliver, for known enthalpies `a` and `b`. -/
def Mixed (p q r : Package) : Prop :=
  r.mat = p.mat ∧ (∀ c, content r c = content p c + content q c) ∧ (∀ a b : ℝ, p.H = some a → q.H = some b → r.H = some (a + b)) ∧ r.P = p.P

/-- What splitting must deliver: nothing is lost, both parts keep the temperature, and the enthalpies add up. -/
def Split (p rest part : Package) : Prop :=
  rest.mat = p.mat ∧ (∀ c, content rest c + content part c = content p c) ∧ rest.T = p.T ∧ part.T = p.T ∧ rest.P = p.P ∧
    ∀ h : ℝ, p.H = some h → ∃ a b : ℝ, rest.H = some a ∧ part.H = some b ∧ a + b = h

/-- The mass of an element in a package: over all compounds, compound mass times element fraction. -/
noncomputable def elementContent (p : Package) (e : Str) : ℝ := (p.mat.compounds.map (fun c => content p c * (Chem.Spec.share c e : ℝ))).sum

/-- The material's compounds are formulas with phases, and its element list is what `stoichiometry.elements` finds in them. -/
def ElementsOK (m : Material) : Prop := ∃ l, Stoich.elements m.compounds = .ok l ∧ l.Perm m.elements

end Auxi.Thermo.Spec
