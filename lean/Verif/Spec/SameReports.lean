import Verif.Spec.Parts
import Verif.Spec.Reports

/-! # Ledgers with the same books and their reports -/
namespace Auxi.Business.Spec
open Business Auxi.Reports Auxi.Reports.Spec

/-- A ledger as the reports see it. -/
def seen (l : List Tx) : List RTx := l.map RTx.ofTx

/-- What a report shows for an account, 0 if it is not listed. -/
def figure (p : Str) (d : Dict Str) : ℚ := (lookup p d).getD 0

/-- Apart from year ends, no revenue account is debited and no expense account credited. -/
def NoReversals (s : Ledger.Structure) (l : List Tx) : Prop :=
  ∀ t ∈ posted l, typeOf s t.dt ≠ some .revenue ∧ typeOf s t.cr ≠ some .expense

/-- The source of every transaction begins with `comp` (so a report about `comp` covers all of the ledger). -/
def AllUnder (comp : Str) (l : List Tx) : Prop := ∀ t ∈ l, comp.isPrefixOf t.source = true

/-- The activity is a basic one that debits no revenue account and credits no expense account. -/
def Forward (s : Ledger.Structure) (a : Activity) : Prop :=
  ∃ x dt cr, a.kind = .basic x dt cr ∧ typeOf s dt ≠ some .revenue ∧ typeOf s cr ≠ some .expense

/-- What the activity posts in the `n` periods of a run is positive, debits no revenue account and credits no expense account. -/
def Proceeds (s : Ledger.Structure) (clk : Time.Clock) (n : Nat) (a : Activity) : Prop :=
  ∀ i < n, ∀ t ∈ txsAt clk (a.prepare clk n) i, 0 < t.amount ∧ typeOf s t.dt ≠ some .revenue ∧ typeOf s t.cr ≠ some .expense

end Auxi.Business.Spec
