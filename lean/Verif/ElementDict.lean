import Verif.Chem
import Verif.ThermoStream

/-!
# Model of the element mass dictionaries of packages and streams

A dictionary is the list of its entries in order of insertion.
-/
namespace Auxi.ElementDict
open Auxi

variable {α : Type}

/-- `d[k] = v` on a Python dictionary (`/repo/auxi/modelling/process/materials/chem.py:455`). -/
def put (k : Str) (v : α) : List (Str × α) → List (Str × α)
  | [] => [(k, v)]
  | (k', w) :: d => if k' = k then (k', v) :: d else (k', w) :: put k v d

/-- `for s, m in zip(ks, vs): result[s] = m` (`chem.py:453-455`, and the comprehension of `thermo.py:960`, and `thermo.py:1703-1705`). -/
def zipInto : List (Str × α) → List Str → List α → List (Str × α)
  | d, k :: ks, v :: vs => zipInto (put k v d) ks vs
  | d, _, _ => d

/-- `chem.MaterialPackage.get_element_mass_dictionary` (`chem.py:442-457`). -/
def chem (p : Chem.Package) : Res (List (Str × Chem.Num)) := match p.elementMasses with
  | .error e => .error e
  | .ok l => .ok (zipInto [] p.mat.elements l)

/-- `thermo.MaterialPackage.get_element_mass_dictionary` (`thermo.py:949-960`). -/
noncomputable def thermo (p : Thermo.Package) : Res (List (Str × Thermo.V)) := match p.elementMasses none with
  | .error e => .error e
  | .ok l => .ok (zipInto [] p.mat.elements l)

/-- `thermo.MaterialStream.get_element_mfr_dictionary` (`thermo.py:1693-1706`). -/
noncomputable def stream (s : Thermo.Stream) : Res (List (Str × Thermo.V)) := match s.elementMfrs none with
  | .error e => .error e
  | .ok l => .ok (zipInto [] s.mat.elements l)

end Auxi.ElementDict
