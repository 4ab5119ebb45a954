import Verif.Stoich
import Verif.ChemFloat
import Verif.Rounding

/-!
# `tools/chemistry/stoichiometry.py` with the numbers of the machine

The functions of `Stoich` with every literal, addition, multiplication and division rounded by `rnd`.  Numbers of atoms are Python integers until they are added to a
`defaultdict(float)`.  Masses and amounts given by the caller are taken to be floats.  Overflow is not modelled: `rnd` has no largest number.
-/
namespace Auxi.StoichFloat
open Auxi Auxi.Stoich
open Auxi.Chem (Num fl int)
open Auxi.ChemFloat (addN mulN conv)

variable (rnd : ℚ → ℚ)

/-- The counts of a group: whole numbers and floats. -/
abbrev NCounts := List (Str × Num)

/-- `counts[element] += x` on a `defaultdict(float)` (`stoichiometry.py:66-69`). -/
def bump (k : Str) (x : Num) : NCounts → NCounts
  | [] => [(k, addN rnd (fl 0) x)]
  | (k', v) :: d => if k' = k then (k', addN rnd v x) :: d else (k', v) :: bump k x d

/-- The inner loop of `count_with_multiplier` (`stoichiometry.py:68-69`). -/
def bumpAll (m : ℕ) : NCounts → NCounts → NCounts
  | [], acc => acc
  | (k, v) :: d, acc => bumpAll m d (bump rnd k (mulN rnd v (int m)) acc)

mutual
/-- `Element.count` and `Group.count` (`stoichiometry.py:47-48,87-88`). -/
def count : Grp → NCounts
  | .elem s => [(s, int 1)]
  | .group gs m => countAll m gs []
/-- The outer loop of `count_with_multiplier` (`stoichiometry.py:57-70`). -/
def countAll (m : ℕ) : List Grp → NCounts → NCounts
  | [], acc => acc
  | g :: gs, acc => countAll m gs (bumpAll rnd m (count g) acc)
end

/-- `Compound.count` (`stoichiometry.py:111-112`). -/
def compoundCount (c : Compound) : NCounts := countAll rnd 1 c.groups []

/-- `d[k]` on a `defaultdict(float)` (`stoichiometry.py:382`). -/
def get (d : NCounts) (k : Str) : ℚ := ((d.lookup k).getD (fl 0)).val

/-- The standard atomic mass as the machine holds it (`stoichiometry.py:406-528`). -/
def atomic (e : Str) : ℚ := rnd ((atomicMass e).getD 0)

/-- `sum(numbers)` of floats, from left to right (`stoichiometry.py:115,225,266`; Python before 3.12). -/
def sumF (l : List ℚ) : ℚ := l.foldl (fun a x => rnd (a + x)) 0

/-- `Compound.molar_mass` (`stoichiometry.py:114-116`). -/
def compoundMass (c : Compound) : ℚ := sumF rnd ((compoundCount rnd c).map (fun e => rnd (atomic rnd e.1 * e.2.val)))

/-- `molar_mass(compound)` (`stoichiometry.py:347-366`). -/
def molarMass (s : Str) : Res ℚ := if s = [] then .ok 0 else (parseCompound (strip s)).map (compoundMass rnd)

/-- `amount(compound, mass)` (`stoichiometry.py:188-199`). -/
def amount (s : Str) (mass : ℚ) : Res ℚ :=
  match molarMass rnd s with
  | .error e => .error e
  | .ok mm => if mm = 0 then .error .zeroDivisionError else .ok (rnd (mass / mm))

/-- `mass(compound, amount)` (`stoichiometry.py:229-240`). -/
def mass (s : Str) (amount : ℚ) : Res ℚ := (molarMass rnd s).map (fun mm => rnd (amount * mm))

/-- `amounts(masses)` (`stoichiometry.py:202-212`). -/
def amounts (d : CDict) : Res CDict := mapDict (amount rnd) d

/-- `masses(amounts)` (`stoichiometry.py:243-253`). -/
def masses (d : CDict) : Res CDict := mapDict (mass rnd) d

/-- `{c: n[c]/n_total for c in n}` (`stoichiometry.py:224-226,265-267`). -/
def fractionsOf (d : CDict) : Res CDict :=
  mapDict (fun _ v => if sumF rnd (d.map (·.2)) = 0 then .error .zeroDivisionError else .ok (rnd (v / sumF rnd (d.map (·.2))))) d

/-- `amount_fractions(masses)` (`stoichiometry.py:215-226`). -/
def amountFractions (d : CDict) : Res CDict :=
  match amounts rnd d with
  | .error e => .error e
  | .ok n => fractionsOf rnd n

/-- `mass_fractions(amounts)` (`stoichiometry.py:256-267`). -/
def massFractions (d : CDict) : Res CDict :=
  match masses rnd d with
  | .error e => .error e
  | .ok n => fractionsOf rnd n

/-- `stoichiometry_coefficient(compound, element)` (`stoichiometry.py:369-382`). -/
def coefficient (s elt : Str) : Res ℚ := (parseCompound (strip s)).map (fun c => get (compoundCount rnd c) elt)

/-- `element_mass_fraction(compound, element)` (`stoichiometry.py:295-312`). -/
def elementMassFraction (s elt : Str) : Res ℚ :=
  match coefficient rnd s elt with
  | .error e => .error e
  | .ok k => if k = 0 then .ok 0 else
    match molarMass rnd s with
    | .error e => .error e
    | .ok fm => match molarMass rnd elt with
      | .error e => .error e
      | .ok em => if fm = 0 then .error .zeroDivisionError else .ok (rnd (rnd (k * em) / fm))

/-- `element_mass_fractions(compound, elements)` (`stoichiometry.py:315-327`). -/
def elementMassFractions (s : Str) : List Str → Res (List ℚ)
  | [] => .ok []
  | e :: es => match elementMassFraction rnd s e with
    | .error x => .error x
    | .ok f => match elementMassFractions s es with
      | .error x => .error x
      | .ok fs => .ok (f :: fs)

/-- `convert_compound(mass, source, target, element)` (`stoichiometry.py:270-292`). -/
def convertCompound (mass : ℚ) (source target elt : Str) : Res ℚ :=
  match elementMassFraction rnd target elt with
  | .error e => .error e
  | .ok tf => if tf = 0 then .ok 0 else
    match elementMassFraction rnd source elt with
    | .error e => .error e
    | .ok sf => .ok (rnd (rnd (mass * sf) / tf))

end Auxi.StoichFloat
