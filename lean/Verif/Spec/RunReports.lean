import Verif.LedgerApi
import Verif.Spec.YearEnd
import Verif.Spec.BusinessOps

/-! # Specification vocabulary for C141: models that run to the end -/
namespace Auxi.RunReports.Spec
open Auxi Auxi.Ledger Auxi.Business Auxi.Business.Spec

/-- The accounts an activity debits when it runs. -/
def debited (a : Activity) : List Str := match a.kind with
  | .basic _ dt _ => [dt]
  | .loan bank loan interest _ _ _ _ _ _ => [bank, interest, loan]

/-- The chart results from a history of account operations and still has the three accounts of the year end. -/
def Complete (c : Chart) : Prop :=
  ReachableChart c ∧ (accountAt c c.grossProf).isSome ∧ (accountAt c c.incSum).isSome ∧ (accountAt c c.retEarn).isSome

/-- No activity of the entity debits a revenue account outside sales and cost of sales. -/
def NoRefunds (e : Entity) : Prop := ∀ a ∈ activitiesOfList e.components, ∀ p ∈ debited a, ¬ PlainRevenue e.chart p

/-- The general ledger of an entity (`entity.gl`). -/
def glOf (e : Entity) : LedgerApi.GL := ⟨e.chart.str, e.transactions.map Reports.RTx.ofTx⟩

end Auxi.RunReports.Spec
