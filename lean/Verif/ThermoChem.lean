import Verif.Stoich
import Mathlib.Analysis.SpecialFunctions.Pow.Real
import Mathlib.Analysis.SpecialFunctions.Log.Basic

/-!
# Model of `/repo/auxi/tools/chemistry/thermochemistry.py` (heat capacity records, phases, compounds, module functions)

Floats are real numbers; `T**e` is `Real.rpow` and `math.log` is `Real.log`, so that the model describes the code for positive temperatures only
(the code raises, or leaves the real numbers, for others).  The dictionary of heat capacity records is keyed by the text of a float; the model
keys it by the number.  The reading of data files is modelled in `Verif.FactSage` and `Verif.Persist`, as is `__str__`.
-/
namespace Auxi.ThermoChem

/-- `CpRecord` (`thermochemistry.py:30-64`): a temperature range and the terms (coefficient, exponent). -/
structure CpRecord where
  /-- `self.Tmin` -/
  Tmin : ℝ
  /-- `self.Tmax` -/
  Tmax : ℝ
  /-- `zip(self._coefficients, self._exponents)` -/
  terms : List (ℝ × ℝ)

/-- `CpRecord.Cp` (`thermochemistry.py:77-89`). -/
noncomputable def CpRecord.Cp (r : CpRecord) (T : ℝ) : ℝ := r.terms.foldl (fun acc t => acc + t.1 * T ^ t.2) 0

/-- `lT` (`thermochemistry.py:102-105,127-130`): the temperature, limited to the range of the record. -/
noncomputable def CpRecord.limit (r : CpRecord) (T : ℝ) : ℝ := if T < r.Tmax then T else r.Tmax

/-- `CpRecord.H` (`thermochemistry.py:91-114`). -/
noncomputable def CpRecord.H (r : CpRecord) (T : ℝ) : ℝ :=
  r.terms.foldl (fun acc t =>
    if t.2 = -1 then acc + t.1 * Real.log (r.limit T / r.Tmin)
    else acc + t.1 * (r.limit T ^ (t.2 + 1) - r.Tmin ^ (t.2 + 1)) / (t.2 + 1)) 0

/-- `CpRecord.S` (`thermochemistry.py:116-141`). -/
noncomputable def CpRecord.S (r : CpRecord) (T : ℝ) : ℝ :=
  r.terms.foldl (fun acc t =>
    let em := t.2 - 1
    if em = -1 then acc + t.1 * Real.log (r.limit T / r.Tmin)
    else
      let e := em + 1
      acc + t.1 * (r.limit T ^ e - r.Tmin ^ e) / e) 0

/-- The magnetic data of a phase (`thermochemistry.py:168-181`). -/
structure Mag where
  /-- `Tc_mag` -/
  Tc : ℝ
  /-- `beta0_mag` -/
  beta0 : ℝ
  /-- `p_mag` -/
  p : ℝ

/-- `Phase` (`thermochemistry.py:144-202`): `Tref` is the constant 298.15 and is read nowhere. -/
structure Phase where
  /-- `self.DHref` -/
  DHref : ℝ
  /-- `self.Sref` -/
  Sref : ℝ
  /-- `self._Cp_records` in insertion order -/
  records : List (ℝ × CpRecord)
  /-- the magnetic data, if present (`thermochemistry.py:192-202`) -/
  mag : Option Mag

/-- The gas constant (`/repo/auxi/tools/physicalconstants.py:47`). -/
noncomputable def R : ℝ := 8.314462618

/-- `_A_mag` (`thermochemistry.py:195`). -/
noncomputable def Mag.A (m : Mag) : ℝ := 79 / (140 * m.p)
/-- `_B_mag` (`thermochemistry.py:196`). -/
noncomputable def Mag.B (m : Mag) : ℝ := (474 / 497) * (1 / m.p - 1)
/-- `_D_mag` (`thermochemistry.py:197`). -/
noncomputable def Mag.D (m : Mag) : ℝ := (518 / 1125) + (11692 / 15975) * (1 / m.p - 1)

/-- `Phase.Cp_mag` (`thermochemistry.py:248-270`). -/
noncomputable def Mag.Cp (m : Mag) (T : ℝ) : ℝ :=
  let τ := T / m.Tc
  let c := if τ ≤ 1 then (m.B * (2 * τ ^ 3 + 2 * τ ^ 9 / 3 + 2 * τ ^ 15 / 5)) / m.D
    else (2 * τ ^ (-5 : ℤ) + 2 * τ ^ (-15 : ℤ) / 3 + 2 * τ ^ (-25 : ℤ) / 5) / m.D
  R * Real.log (m.beta0 + 1) * c

/-- `Phase.H_mag` (`thermochemistry.py:295-316`). -/
noncomputable def Mag.H (m : Mag) (T : ℝ) : ℝ :=
  let τ := T / m.Tc
  let h := if τ ≤ 1 then (-m.A / τ + m.B * (τ ^ 3 / 2 + τ ^ 9 / 15 + τ ^ 15 / 40)) / m.D
    else -(τ ^ (-5 : ℤ) / 2 + τ ^ (-15 : ℤ) / 21 + τ ^ (-25 : ℤ) / 60) / m.D
  R * T * Real.log (m.beta0 + 1) * h

/-- `Phase.S_mag` (`thermochemistry.py:341-362`). -/
noncomputable def Mag.S (m : Mag) (T : ℝ) : ℝ :=
  let τ := T / m.Tc
  let s := if τ ≤ 1 then 1 - (m.B * (2 * τ ^ 3 / 3 + 2 * τ ^ 9 / 27 + 2 * τ ^ 15 / 75)) / m.D
    else (2 * τ ^ (-5 : ℤ) / 5 + 2 * τ ^ (-15 : ℤ) / 45 + 2 * τ ^ (-25 : ℤ) / 125) / m.D;
  -R * Real.log (m.beta0 + 1) * s

/-- `Phase.G_mag` (`thermochemistry.py:389-411`). -/
noncomputable def Mag.G (m : Mag) (T : ℝ) : ℝ :=
  let τ := T / m.Tc
  let g := if τ ≤ 1 then 1 - (m.A / τ + m.B * (τ ^ 3 / 6 + τ ^ 9 / 135 + τ ^ 15 / 600)) / m.D
    else -(τ ^ (-5 : ℤ) / 10 + τ ^ (-15 : ℤ) / 315 + τ ^ (-25 : ℤ) / 1500) / m.D
  R * T * Real.log (m.beta0 + 1) * g

/-- `self.Cp_mag` as bound by `_init` (`thermochemistry.py:192-202`): zero without magnetic data. -/
noncomputable def Phase.CpMag (p : Phase) (T : ℝ) : ℝ := match p.mag with | some m => m.Cp T | none => 0
/-- `self.H_mag` (`thermochemistry.py:192-202`). -/
noncomputable def Phase.HMag (p : Phase) (T : ℝ) : ℝ := match p.mag with | some m => m.H T | none => 0
/-- `self.S_mag` (`thermochemistry.py:192-202`). -/
noncomputable def Phase.SMag (p : Phase) (T : ℝ) : ℝ := match p.mag with | some m => m.S T | none => 0
/-- `self.G_mag` (`thermochemistry.py:192-202`). -/
noncomputable def Phase.GMag (p : Phase) (T : ℝ) : ℝ := match p.mag with | some m => m.G T | none => 0

open Classical in
/-- Insert a record into a list sorted by key. (part of `sorted`, `thermochemistry.py:240`) -/
noncomputable def insertRecord (r : ℝ × CpRecord) : List (ℝ × CpRecord) → List (ℝ × CpRecord)
  | [] => [r]
  | s :: l => if r.1 ≤ s.1 then r :: s :: l else s :: insertRecord r l

/-- `sorted(...)` over the keys, with the record of each key (`thermochemistry.py:240,284,330,376`). -/
noncomputable def sortRecords : List (ℝ × CpRecord) → List (ℝ × CpRecord)
  | [] => []
  | r :: l => insertRecord r (sortRecords l)

open Classical in
/-- The loop of `Phase.Cp` (`thermochemistry.py:240-242`): the first record with `T < Tmax`. -/
noncomputable def cpLoop (T : ℝ) : List (ℝ × CpRecord) → Option CpRecord
  | [] => none
  | r :: l => if T < r.1 then some r.2 else cpLoop T l

/-- `Phase.Cp` (`thermochemistry.py:229-246`); `max` of an empty list is a `ValueError`. -/
noncomputable def Phase.Cp (p : Phase) (T : ℝ) : Res ℝ :=
  match cpLoop T (sortRecords p.records) with
  | some r => .ok (r.Cp T + p.CpMag T)
  | none => match (sortRecords p.records).getLast? with
    | none => .error .valueError
    | some r => .ok (r.2.Cp r.1 + p.CpMag T)

open Classical in
/-- The loop of `Phase.H` (`thermochemistry.py:284-287`): the sum, and whether the loop returned. -/
noncomputable def hLoop (T : ℝ) : List (ℝ × CpRecord) → ℝ → ℝ × Bool
  | [], acc => (acc, false)
  | r :: l, acc => if T ≤ r.1 then (acc + r.2.H T, true) else hLoop T l (acc + r.2.H T)

open Classical in
/-- The loop of `Phase.S` (`thermochemistry.py:330-333`). -/
noncomputable def sLoop (T : ℝ) : List (ℝ × CpRecord) → ℝ → ℝ × Bool
  | [], acc => (acc, false)
  | r :: l, acc => if T ≤ r.1 then (acc + r.2.S T, true) else sLoop T l (acc + r.2.S T)

/-- `Phase.H` (`thermochemistry.py:272-293`). -/
noncomputable def Phase.H (p : Phase) (T : ℝ) : Res ℝ :=
  match hLoop T (sortRecords p.records) p.DHref with
  | (h, true) => .ok (h + p.HMag T)
  | (h, false) => match (sortRecords p.records).getLast? with
    | none => .error .valueError
    | some r => match p.Cp r.1 with
      | .error e => .error e
      | .ok c => .ok (h + c * (T - r.1) + p.HMag T)

/-- `Phase.S` (`thermochemistry.py:318-339`). -/
noncomputable def Phase.S (p : Phase) (T : ℝ) : Res ℝ :=
  match sLoop T (sortRecords p.records) p.Sref with
  | (s, true) => .ok (s + p.SMag T)
  | (s, false) => match (sortRecords p.records).getLast? with
    | none => .error .valueError
    | some r => match p.Cp r.1 with
      | .error e => .error e
      | .ok c => .ok (s + c * Real.log (T / r.1) + p.SMag T)

open Classical in
/-- The loop of `Phase.G` (`thermochemistry.py:376-380`): both sums, and whether the loop returned. -/
noncomputable def gLoop (T : ℝ) : List (ℝ × CpRecord) → ℝ → ℝ → ℝ × ℝ × Bool
  | [], h, s => (h, s, false)
  | r :: l, h, s => if T ≤ r.1 then (h + r.2.H T, s + r.2.S T, true) else gLoop T l (h + r.2.H T) (s + r.2.S T)

/-- `Phase.G` (`thermochemistry.py:364-387`). -/
noncomputable def Phase.G (p : Phase) (T : ℝ) : Res ℝ :=
  match gLoop T (sortRecords p.records) p.DHref p.Sref with
  | (h, s, true) => .ok (h - T * s + p.GMag T)
  | (h, s, false) => match (sortRecords p.records).getLast? with
    | none => .error .valueError
    | some r => match p.Cp r.1 with
      | .error e => .error e
      | .ok c =>
        let h' := h + c * (T - r.1)
        let s' := s + c * Real.log (T / r.1)
        .ok (h' - T * s' + p.GMag T)

/-- The data from which a `Phase` is built (`thermochemistry.py:152-190`). -/
structure PhaseDict where
  /-- `dictionary['DHref']` -/
  DHref : ℝ
  /-- `dictionary['Sref']` -/
  Sref : ℝ
  /-- `dictionary['Cp_records']` -/
  records : List (ℝ × CpRecord)
  /-- `dictionary['magnetic']`, if that key is present -/
  magnetic : Option Mag

/-- `Phase.__init__` (`thermochemistry.py:152-192`): `['magnetic']['Tc']` subscripts a list with a string, which is a `TypeError`. -/
noncomputable def Phase.ofDict (d : PhaseDict) : Res Phase :=
  match d.magnetic with
  | some _ => .error .typeError
  | none => .ok ⟨d.DHref, d.Sref, d.records, none⟩

/-- `Compound` (`thermochemistry.py:414-442`). -/
structure Compound where
  /-- `self.molar_mass` in kg/mol -/
  molarMass : ℝ
  /-- `self._phases` -/
  phases : List (Str × Phase)

/-- A property of a phase of a compound (`thermochemistry.py:471-537`): a missing phase raises `Exception`. -/
noncomputable def Compound.prop (f : Phase → ℝ → Res ℝ) (c : Compound) (phase : Str) (T : ℝ) : Res ℝ :=
  match c.phases.lookup phase with
  | none => .error .exception
  | some p => f p T

/-- `str.split('[')` (`thermochemistry.py:668-669`). -/
def splitBracket : Str → List Str
  | [] => [[]]
  | c :: cs => if c = '[' then [] :: splitBracket cs else
      match splitBracket cs with
      | [] => [[c]]
      | s :: r => (c :: s) :: r

/-- `_split_compound_string_` (`thermochemistry.py:656-671`). -/
def splitCompound (s : Str) : Res (Str × Str) :=
  match splitBracket (s.filter (· ≠ ']')) with
  | f :: p :: _ => .ok (f, p)
  | _ => .error .indexError

open Classical in
/-- `_finalise_result_` (`thermochemistry.py:674-690`). -/
noncomputable def finalise (c : Compound) (value mass : ℝ) : Res ℝ :=
  if c.molarMass = 0 then .error .zeroDivisionError else .ok (value / 3600000 / c.molarMass * mass)

/-- The module level `Cp`, `H`, `S` and `G` (`thermochemistry.py:798-879`), which differ only in the property of the phase; `db` is the
module's `compounds` dictionary. -/
noncomputable def evaluate (f : Phase → ℝ → Res ℝ) (db : List (Str × Compound)) (s : Str) (T mass : ℝ) : Res ℝ :=
  match splitCompound s with
  | .error e => .error e
  | .ok (formula, phase) => match db.lookup formula with
    | none => .error .keyError
    | some c => match c.prop f phase (T + 273.15) with
      | .error e => .error e
      | .ok v => finalise c v mass

/-- Module level `Cp` (`thermochemistry.py:798-816`). -/
noncomputable def Cp (db : List (Str × Compound)) := evaluate Phase.Cp db
/-- Module level `H` (`thermochemistry.py:819-837`). -/
noncomputable def H (db : List (Str × Compound)) := evaluate Phase.H db
/-- Module level `S` (`thermochemistry.py:840-858`). -/
noncomputable def S (db : List (Str × Compound)) := evaluate Phase.S db
/-- Module level `G` (`thermochemistry.py:861-880`). -/
noncomputable def G (db : List (Str × Compound)) := evaluate Phase.G db

end Auxi.ThermoChem
