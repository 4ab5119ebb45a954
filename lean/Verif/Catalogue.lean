import Verif.Json
import Verif.ThermoChem

/-!
# Model of the catalogue of the thermochemical module

`/repo/auxi/tools/chemistry/thermochemistry.py`: `Compound.get_phase_list`, `Compound.get_reference`, `list_compounds`, `get_datafile_references`.  What `list_compounds` prints is a list of lines;
the file `references.json` is the dictionary that `json.load` makes of it (a parameter).
-/
namespace Auxi.Catalogue
open ThermoChem

/-- `sorted(d.keys())` for a dictionary with string keys (`thermochemistry.py:464,771`). -/
def sortedKeys {α : Type} (d : List (Str × α)) : List Str := (Json.sortKeys d).map (·.1)

/-- `Compound.get_phase_list` (`thermochemistry.py:457-464`). -/
def phaseList (c : Compound) : List Str := sortedKeys c.phases

/-- `sep.join(l)` (`thermochemistry.py:773`). -/
def join (sep : Str) : List Str → Str
  | [] => []
  | [s] => s
  | s :: t :: l => s ++ sep ++ join sep (t :: l)

/-- The loop of `list_compounds` (`thermochemistry.py:771-773`); `compounds[compound]` finds the compound of the key. -/
def compoundLines (db : List (Str × Compound)) : List Str → List Str
  | [] => []
  | f :: l => match db.lookup f with
    | some c => (f ++ ": ".toList ++ join ", ".toList (phaseList c)) :: compoundLines db l
    | none => compoundLines db l

/-- The lines that `list_compounds` prints (`thermochemistry.py:764-773`). -/
def listCompounds (db : List (Str × Compound)) : List Str := "Compounds currently loaded:".toList :: compoundLines db (sortedKeys db)

/-- `Compound.get_reference` (`thermochemistry.py:466-469`), with `get_datafile_references()` (`thermochemistry.py:778-783`) as the dictionary `refs`; `none` is `None`. -/
def getReference (refs : List (Str × Str)) (reference : Option Str) : Res Str :=
  match reference with
  | none => .ok []
  | some r => if r = [] then .ok [] else match refs.lookup r with
    | some t => .ok t
    | none => .error .keyError

/-- `data/references.json`, read by `get_datafile_references` (`thermochemistry.py:778-783`). -/
def shippedReferences : List (Str × Str) :=
  [("rao1985".toList, "Rao, Y.K. (1985). Stoichiometry and Thermodynamics of Metallurgical Processes. Cambridge, UK: Cambridge University. ISBN: 0-521-25856-1.".toList),
   ("chase1998".toList, "Chase, M.W., Jr., (1998), NIST-JANAF Themochemical Tables, Fourth Edition, J. Phys. Chem. Ref. Data, Monograph 9, 1998, 1-1951.".toList)]

end Auxi.Catalogue
