import Verif.Spec.Business

/-! # Specification vocabulary for C146, C147 -/
namespace Auxi.Business.Spec
open Auxi.Business Time

/-- Running the model succeeds and turns its entity `e` into `e'`. -/
def RunOf (m : Model) (e e' : Entity) : Prop := ∃ (m' : Model) (i : Nat), m.run = .ok m' ∧ m.entities[i]? = some e ∧ m'.entities[i]? = some e'

/-- No run has fixed the activity's schedule yet, it executes every period (interval 0 or 1) and its start is not after the last of `n` periods. -/
def Plainly (clk : Clock) (n : Nat) (a : Activity) : Prop :=
  Fresh a ∧ (a.interval = 0 ∨ a.interval = 1) ∧ (a.start = dtMin ∨ ∃ i, i < n ∧ a.start < clk.atIx i)

/-- As before, with any interval. -/
def StartsWithin (clk : Clock) (n : Nat) (a : Activity) : Prop :=
  Fresh a ∧ (a.start = dtMin ∨ ∃ i, i < n ∧ a.start < clk.atIx i)

/-- The activity has no end, or one before the last of `n` periods. -/
def EndsWithin (clk : Clock) (n : Nat) (a : Activity) : Prop := a.stop = dtMax ∨ ∃ i, i < n ∧ a.stop < clk.atIx i

end Auxi.Business.Spec
