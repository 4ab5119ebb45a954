import Verif.Spec.ThermoStream
import Verif.Spec.Chem
import Verif.Coals

/-!
# What the enthalpy of coal must say about burning and heating it

Independent of the loops over the compounds: mass flow rates of the elements, the products into which coal burns, and the compounds (ash, water) that are no elements.
-/
namespace Auxi.Thermo.Spec
open Auxi Auxi.Thermo

/-- The elements of coal. -/
def coalSymbols : List Str := ["C".toList, "H".toList, "O".toList, "N".toList, "S".toList]

open Classical in
/-- The mass flow rate of the compounds that consist of an element only, given the mass flow rates of all. -/
noncomputable def pureFlow (m : Material) (ms : List ℝ) (e : Str) : ℝ := ((m.compounds.zip ms).map (fun p => if Chem.Spec.share p.1 e = 1 then p.2 else 0)).sum

/-- The mass flow rate of the organic part. -/
noncomputable def organicFlow (m : Material) (ms : List ℝ) : ℝ := (coalSymbols.map (pureFlow m ms)).sum

/-- The ultimate analysis of the organic part. -/
noncomputable def analysis (m : Material) (ms : List ℝ) : Coals.Assay :=
  ⟨pureFlow m ms "C".toList / organicFlow m ms, pureFlow m ms "H".toList / organicFlow m ms, pureFlow m ms "O".toList / organicFlow m ms, pureFlow m ms "N".toList / organicFlow m ms,
    pureFlow m ms "S".toList / organicFlow m ms⟩

open Classical in
/-- The enthalpy at a temperature of the compounds that are not such an element: ash and water. -/
noncomputable def restEnthalpy (db : Db) (m : Material) (ms : List ℝ) (t : ℝ) : ℝ :=
  ((m.compounds.zip ms).map (fun p => if ∃ e ∈ coalSymbols, Chem.Spec.share p.1 e = 1 then 0 else p.2 * unitH db p.1 t)).sum

open Classical in
/-- The enthalpy at 25 °C of the elements themselves. -/
noncomputable def elementEnthalpy (db : Db) (m : Material) (ms : List ℝ) : ℝ :=
  ((m.compounds.zip ms).map (fun p => if ∃ e ∈ coalSymbols, Chem.Spec.share p.1 e = 1 then p.2 * unitH db p.1 25 else 0)).sum

/-- The enthalpy at 25 °C of the product `p` that contains all of the element `e` and nothing else of the coal. -/
noncomputable def productEnthalpy (db : Db) (m : Material) (ms : List ℝ) (e p : Str) : ℝ := pureFlow m ms e / (Chem.Spec.share p e : ℝ) * unitH db p 25

/-- The enthalpy at 25 °C of what the organic part burns to: carbon dioxide, liquid water, sulphur dioxide, and its oxygen and nitrogen.  (The oxygen of the air has the enthalpy 0 at 25 °C.) -/
noncomputable def burnedEnthalpy (db : Db) (m : Material) (ms : List ℝ) : ℝ :=
  productEnthalpy db m ms "C".toList "CO2[G]".toList + productEnthalpy db m ms "H".toList "H2O[L]".toList + productEnthalpy db m ms "O".toList "O2[G]".toList +
    productEnthalpy db m ms "N".toList "N2[G]".toList + productEnthalpy db m ms "S".toList "SO2[G]".toList

end Auxi.Thermo.Spec
