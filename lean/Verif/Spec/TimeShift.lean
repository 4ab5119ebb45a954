import Verif.Spec.Independence

/-! # The same plan in other calendars -/
namespace Auxi.Business.Spec
open Business Time Calendar

/-- The activities are the same but for their start and end, and these fall into the same of the `n` periods of either clock (or are left open in both). -/
def SamePlan (c c' : Clock) (n : Nat) (a a' : Activity) : Prop :=
  a' = { a with start := a'.start, stop := a'.stop } ∧ (a.start = dtMin ↔ a'.start = dtMin) ∧ (a.stop = dtMax ↔ a'.stop = dtMax) ∧
    (a.start ≠ dtMin → ∀ i : Nat, i < n → (a.start < c.atIx i ↔ a'.start < c'.atIx i)) ∧ (a.stop ≠ dtMax → ∀ i : Nat, i < n → (a.stop < c.atIx i ↔ a'.stop < c'.atIx i))

/-- A transaction on another date. -/
def redate (f : Int → Int) (t : Tx) : Tx := { t with date := f t.date }

/-- A start or an end moved by `d` microseconds; one that is left open stays open. -/
def moved (d opn t : Int) : Int := if t = opn then opn else t + d

/-- An activity moved by `d` microseconds. -/
def Activity.later (d : Int) (a : Activity) : Activity := { a with start := moved d dtMin a.start, stop := moved d dtMax a.stop }

end Auxi.Business.Spec
