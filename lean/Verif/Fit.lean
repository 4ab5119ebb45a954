import Verif.Csv
import Verif.PhysProps

/-!
# Fitted models: `/repo/auxi/tools/materialphysicalproperties/polynomial.py:43-77` and the data of a `DataSet` (`core.py:147-148`)

The columns that pandas reads are lists of real numbers (no missing cells; how pandas reads a number is not modelled, nor is its
renaming of repeated column names).  `np.polyfit` is a parameter: the properties assume of it that it solves the least
squares problem.  Rounding is not modelled.  `create` changes the limits in `state_schema` after the validator was built
from it (`polynomial.py:67-68`); the validator of cerberus keeps the inner dictionaries of the schema it is given, so that
the change takes effect, and this is assumed here.
-/
namespace Auxi.Fit
open Phys

/-- A `DataSet` (`core.py:89-148`): its name, what its header says and its columns by symbol. -/
structure DataSet where
  /-- `name` -/
  name : Str
  /-- the header -/
  header : Csv.Header
  /-- `data` -/
  data : List (Str × List ℝ)

/-- `dataset.data[symbol].tolist()` (`polynomial.py:55-56`). -/
def DataSet.column (d : DataSet) (symbol : Str) : Res (List ℝ) := match d.data.lookup symbol with
  | none => .error .keyError
  | some l => .ok l

/-- A `PolynomialModelT` (`polynomial.py:72-77`, `core.py:167-178`) with its description. -/
structure Model where
  /-- `material` -/
  material : Str
  /-- `property` -/
  property : Str
  /-- `symbol` -/
  symbol : Str
  /-- `display_symbol` -/
  displaySymbol : Str
  /-- `units` -/
  units : Str
  /-- `references` -/
  references : Option (List Str)
  /-- `datasets` -/
  datasets : List Str
  /-- the coefficients and limits -/
  poly : Poly

/-- `np.polyfit(x_vals, y_vals, degree)` (`polynomial.py:57`): its checks, then the coefficients found by `fit`. -/
def polyfit (fit : List ℝ → List ℝ → Nat → List ℝ) (xs ys : List ℝ) (degree : Int) : Res (List ℝ) :=
  if degree < 0 then .error .valueError
  else if xs = [] then .error .typeError
  else if xs.length ≠ ys.length then .error .typeError
  else .ok (fit xs ys degree.toNat)

/-- `min(x_vals)` of a list that is not empty (`polynomial.py:67`). -/
noncomputable def least : List ℝ → ℝ
  | [] => 0
  | x :: xs => xs.foldl min x

/-- `max(x_vals)` of a list that is not empty (`polynomial.py:68`). -/
noncomputable def greatest : List ℝ → ℝ
  | [] => 0
  | x :: xs => xs.foldl max x

/-- `PolynomialModelT.create(dataset, symbol, degree)` (`polynomial.py:43-70`). -/
noncomputable def create (fit : List ℝ → List ℝ → Nat → List ℝ) (d : DataSet) (symbol : Str) (degree : Int) : Res Model := do
  let xs ← d.column "T".toList
  let ys ← d.column symbol
  let cs ← polyfit fit xs ys degree
  let property ← d.header.name symbol
  let displaySymbol ← d.header.displaySymbol symbol
  let units ← d.header.units symbol
  .ok ⟨d.header.material, property, symbol, displaySymbol, units, none, [d.name], ⟨cs, least xs, some (greatest xs)⟩⟩

/-- `model(T=T)` (`core.py:180-184`, `polynomial.py:79-89`). -/
noncomputable def Model.call (m : Model) (T : ℝ) : Res ℝ := m.poly.calculate [("T".toList, .num T)]

end Auxi.Fit
