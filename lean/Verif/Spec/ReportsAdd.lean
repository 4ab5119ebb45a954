import Verif.Spec.Reports

/-! # Specification vocabulary for C145: adjoining periods -/
namespace Auxi.Reports.Spec
open Auxi.Reports Auxi.Ledger Auxi.Business

/-- `b` is the end of one period and `b'` the start of the next: every transaction of the ledger is dated up to `b` or from `b'` on, none both. -/
def Cut (b b' : When) (txs : List RTx) : Prop := ∀ t ∈ txs, (notAfter t.date b = true ∧ notAfter b' t.date = false) ∨ (notAfter t.date b = false ∧ notAfter b' t.date = true)

/-- The transactions dated after `b` and up to `c`. -/
def between (b c : When) (txs : List RTx) : List RTx := txs.filter (fun t => notAfter t.date c && !notAfter t.date b)

/-- The figure that a column shows for an account, nothing being zero. -/
def figure (p : Str) (d : Dict Str) : ℚ := (lookup p d).getD 0

/-- Net income of an income statement. -/
def netIncome (b : Income) : ℚ := dictSum b.income - dictSum b.expenses

/-- The transactions that an income statement of a whole ledger is made of. -/
def counting (start stop : When) (txs : List RTx) : List RTx := txs.filter (fun t => selected [] start stop t && ordinary t)

/-- Each revenue account is first credited, each expense account first debited. -/
def WellSided (s : Structure) (l : List RTx) : Prop :=
  (∀ p, typeOf s p = some .revenue → firstOnSide true p l) ∧ (∀ p, typeOf s p = some .expense → firstOnSide false p l)

end Auxi.Reports.Spec
