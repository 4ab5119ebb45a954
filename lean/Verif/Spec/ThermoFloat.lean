import Verif.ThermoFloat
import Verif.Spec.PsdFloat

/-! # Specification: thermochemical packages in floating point -/
namespace Auxi.ThermoFloat.Spec
open Auxi Auxi.ThermoFloat

/-- The mass of a compound in a package, zero if the material has no such compound: the compounds name the places of the masses. -/
def held (p : Package) (c : Str) : ℚ := ((p.mat.compounds.zip p.masses).lookup c).getD 0

/-- A package as programs have them: one mass for each compound of the material, no compound twice, and every mass a machine number that is not negative. -/
def Sound (rnd : ℚ → ℚ) (p : Package) : Prop := p.mat.compounds.Nodup ∧ p.masses.length = p.mat.compounds.length ∧ ∀ x ∈ p.masses, rnd x = x ∧ 0 ≤ x

/-- The three ways of taking a part out of a package: a mass, a mass of a compound, all of a compound. -/
inductive Part
  /-- `extract(mass)` -/
  | mass (x : ℚ)
  /-- `extract((compound, mass))` -/
  | ofCompound (c : Str) (x : ℚ)
  /-- `extract(compound)` -/
  | compound (c : Str)

/-- What is asked for is a machine number and not negative. -/
def PartOk (rnd : ℚ → ℚ) : Part → Prop
  | .mass x => rnd x = x ∧ 0 ≤ x
  | .ofCompound _ x => rnd x = x ∧ 0 ≤ x
  | .compound _ => True

/-- `p.extract(…)`. -/
def extract (rnd : ℚ → ℚ) (S : List ℚ → ℚ) (h : Str → ℚ → Res ℚ) (p : Package) : Part → Res Package × Package
  | .mass x => extractMass rnd S h p x
  | .ofCompound c x => extractCompoundMass rnd S h p c x
  | .compound c => extractCompound rnd S h p c

/-- The enthalpy per kilogram that is computed for a compound at a temperature (zero where none is). -/
def spec (h : Str → ℚ → Res ℚ) (c : Str) (T : ℚ) : ℚ := match h c T with
  | .ok v => v
  | .error _ => 0

/-- The exact enthalpy of masses of these compounds at a temperature. -/
def exactH (h : Str → ℚ → Res ℚ) (p : Package) (T : ℚ) : ℚ := (p.mat.compounds.map (fun c => spec h c T * held p c)).sum

/-- The size of the terms the enthalpy is made of. -/
def sizeH (h : Str → ℚ → Res ℚ) (p : Package) (T : ℚ) : ℚ := (p.mat.compounds.map (fun c => |spec h c T| * held p c)).sum

/-- The sum of the sizes of the specific enthalpies. -/
def sizes (h : Str → ℚ → Res ℚ) (m : Material) (T : ℚ) : ℚ := (m.compounds.map (fun c => |spec h c T|)).sum

/-- How far the enthalpy computed for `n` compounds can be from the exact one: about `n + 1` roundings of `A`. -/
def tol (u η : ℚ) (n : ℕ) (A : ℚ) : ℚ := ((1 + u) ^ (n + 1) - 1) * A + n * (1 + u) ^ n * η

/-- The enthalpy of a package is that of its masses at its temperature, up to the roundings of computing it. -/
def Matches (u η : ℚ) (h : Str → ℚ → Res ℚ) (p : Package) : Prop := |p.H - exactH h p p.T| ≤ tol u η p.mat.compounds.length (sizeH h p p.T)

/-- The part asked for is of a compound of the package's material (or of all of them). -/
def Known (p : Package) : Part → Prop
  | .mass _ => True
  | .ofCompound c _ => c ∈ p.mat.compounds
  | .compound c => c ∈ p.mat.compounds

/-- A solver finds temperatures at which the enthalpy is the one asked for within `ε`. -/
def SolvesTo (h : Str → ℚ → Res ℚ) (solve : Material → List ℚ → ℚ → ℚ → Res ℚ) (ε : ℚ) : Prop :=
  ∀ m a T H t, solve m a T H = .ok t → ∀ P, |exactH h ⟨m, a, P, t, H⟩ t - H| ≤ ε

/-- A bound of the enthalpy in a package of a plant after `n` steps: `N` compounds, of each at most `X` in the plant at first, and at most `B` per kilogram. -/
def capacity (u η B : ℚ) (N : ℕ) (X : ℚ) (n : ℕ) : ℚ := B * (N * ((1 + (2 * u + u ^ 2)) ^ n * (X + n * (2 * η))))

/-- By how much one split or join changes the enthalpy of a plant at most, if no package has more than `A` of it. -/
def stepH (u η ε B : ℚ) (N : ℕ) (A : ℚ) : ℚ := (ε + tol u η N A) + 2 * tol u η N A + ((2 * u + u ^ 2) * A + 2 * η * (N * B)) + 2 * u * (A + (ε + tol u η N A)) + η

end Auxi.ThermoFloat.Spec
