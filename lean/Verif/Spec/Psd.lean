import Verif.Psd
import Verif.Slurry

/-!
# Specification vocabulary for psd and slurry packages
-/
namespace Auxi.Psd.Spec

/-- The (finite) mass of a size class in a package, as reported by `get_size_class_mass`; zero for an unknown class. -/
def content (p : Package) (c : ℚ) : ℚ :=
  match p.classMass c with
  | .ok (.fin q) => q
  | _ => 0

/-- All masses are finite numbers. -/
def Finite (p : Package) : Prop := ∀ x ∈ p.masses, ∃ q, x = .fin q

/-- One mass per size class. -/
def Shape (p : Package) : Prop := p.masses.length = p.mat.classes.length

/-- The size classes of a material are distinct. -/
def Distinct (m : Material) : Prop := m.classes.Nodup

/-- Sum of the class contents. -/
def total (p : Package) : ℚ := (p.mat.classes.map (content p)).sum

end Auxi.Psd.Spec

namespace Auxi.Slurry.Spec
open Psd (F64)

/-- A healthy slurry package: one finite mass per size class, a finite water mass and a positive finite solid density. -/
structure OK (p : Package) : Prop where
  finite : Psd.Spec.Finite p.solids
  shape : Psd.Spec.Shape p.solids
  distinct : Psd.Spec.Distinct p.mat.psd
  water : ∃ w, p.water = .fin w
  density : ∃ d, p.density = .fin d ∧ 0 < d

/-- Mass of a size class. -/
def content (p : Package) (c : ℚ) : ℚ := Psd.Spec.content p.solids c

/-- Mass of water. -/
def water (p : Package) : ℚ := match p.water with
  | .fin w => w
  | _ => 0

/-- Mass of all solids. -/
def solid (p : Package) : ℚ := Psd.Spec.total p.solids

/-- Volume: water at density one plus solids at the solid density. -/
def volume (p : Package) : ℚ := match p.density with
  | .fin d => water p + solid p / d
  | _ => 0

end Auxi.Slurry.Spec
