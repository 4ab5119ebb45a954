import Verif.ThermoStream
import Verif.Spec.Thermo

/-!
# Specification vocabulary for material streams
-/
namespace Auxi.Thermo.Spec
open Auxi.Thermo

/-- The mass flow rate of a compound in a stream as the API reports it; 0 if the call fails or the value is not finite. -/
noncomputable def flow (s : Stream) (c : Str) : ℝ :=
  match s.compoundMfr c with
  | .ok (some x) => x
  | _ => 0

/-- The enthalpy flow rate that the contents of a stream have at a temperature: over all its compounds, mass flow rate times specific enthalpy. -/
noncomputable def flowEnthalpyAt (db : Db) (s : Stream) (T : ℝ) : ℝ := (s.mat.compounds.map (fun c => flow s c * unitH db c T)).sum

/-- An ordinary stream: of a material with at least one compound and none listed twice, not coal, one finite flow rate per compound, a finite
temperature. -/
structure SoundStream (s : Stream) : Prop where
  some_compound : s.mat.compounds ≠ []
  distinct : s.mat.compounds.Nodup
  finite : ∃ ms : List ℝ, s.mfrs = ms.map some ∧ ms.length = s.mat.compounds.length
  temperature : ∃ t : ℝ, s.T = some t
  not_coal : s.isCoal = false

/-- No negative mass flow rates. -/
def NonNegStream (s : Stream) : Prop := ∀ c, 0 ≤ flow s c

/-- The total mass flow rate of the contents. -/
noncomputable def totalFlow (s : Stream) : ℝ := (s.mat.compounds.map (flow s)).sum

/-- The stored enthalpy flow rate is that of the contents at the stored temperature. -/
def ConsistentStream (db : Db) (s : Stream) : Prop := ∃ t : ℝ, s.T = some t ∧ s.Hfr = some (flowEnthalpyAt db s t)

/-- What mixing two streams must deliver, for known enthalpy flow rates `a` and `b`. -/
def MixedStreams (p q r : Stream) : Prop :=
  r.mat = p.mat ∧ (∀ c, flow r c = flow p c + flow q c) ∧ (∀ a b : ℝ, p.Hfr = some a → q.Hfr = some b → r.Hfr = some (a + b)) ∧ r.P = p.P

/-- What splitting a stream must deliver: nothing is lost, both parts keep the temperature, and the enthalpy flow rates add up. -/
def SplitStream (p rest part : Stream) : Prop :=
  rest.mat = p.mat ∧ (∀ c, flow rest c + flow part c = flow p c) ∧ rest.T = p.T ∧ part.T = p.T ∧ rest.P = p.P ∧
    ∀ h : ℝ, p.Hfr = some h → ∃ a b : ℝ, rest.Hfr = some a ∧ part.Hfr = some b ∧ a + b = h

end Auxi.Thermo.Spec
