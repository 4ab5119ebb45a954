import Verif.Stoich
import Mathlib.Analysis.SpecialFunctions.Exp
import Mathlib.Data.Real.Basic

/-!
# Model of `/repo/auxi/tools/materialphysicalproperties/coals.py`

Floats are real numbers.  Simplification: `math.exp` raises `OverflowError` above about 709 (temperatures below 2.6 K), which is not modelled.
-/
namespace Auxi.Coals

/-- The gas constant (`/repo/auxi/tools/physicalconstants.py:47`). -/
noncomputable def R : ℝ := 8.314462618

/-- The mass fractions of carbon, hydrogen, oxygen, nitrogen and sulphur (`coals.py:38-52`). -/
structure Assay where
  /-- `y_C` -/
  C : ℝ
  /-- `y_H` -/
  H : ℝ
  /-- `y_O` -/
  O : ℝ
  /-- `y_N` -/
  N : ℝ
  /-- `y_S` -/
  S : ℝ

/-- `molar_mass` of an element, as a real (`coals.py:11,70-71`, `stoichiometry.py:347-366`). -/
noncomputable def mm (e : String) : ℝ := match Stoich.molarMass e.toList with
  | .ok w => (w : ℝ)
  | .error _ => 0

/-- The sum in the denominator of `_calc_a` (`coals.py:70-71`). -/
noncomputable def moles (y : Assay) : ℝ := y.C / mm "C" + y.H / mm "H" + y.O / mm "O" + y.N / mm "N" + y.S / mm "S"

open Classical in
/-- `DafThermoTy._calc_a` (`coals.py:54-71`). -/
noncomputable def calcA (y : Assay) : Res ℝ := if moles y = 0 then .error .zeroDivisionError else .ok (1 / moles y)

/-- `DafCpTy._calc_g1` (`coals.py:85-92`). -/
noncomputable def g1 (z : ℝ) : ℝ := Real.exp z / ((Real.exp z - 1) / z) ^ 2

/-- `DafHTy._calc_g0` (`coals.py:134-141`). -/
noncomputable def g0 (z : ℝ) : ℝ := 1 / (Real.exp z - 1)

open Classical in
/-- `DafCpTy.calculate` (`coals.py:94-121`): it does not validate the state. -/
noncomputable def dafCp (T : ℝ) (y : Assay) : Res ℝ :=
  match calcA y with
  | .error e => .error e
  | .ok a => if T = 0 then .error .zeroDivisionError else .ok (R / (a / 1000) * (g1 (380 / T) + 2 * g1 (1800 / T)))

open Classical in
/-- `DafHTy.calculate` (`coals.py:143-170`): it does not validate the state. -/
noncomputable def dafH (T : ℝ) (y : Assay) : Res ℝ :=
  match calcA y with
  | .error e => .error e
  | .ok a => if T = 0 then .error .zeroDivisionError else .ok (R / (a / 1000) * (380 * g0 (380 / T) + 3600 * g0 (1800 / T)))

end Auxi.Coals
