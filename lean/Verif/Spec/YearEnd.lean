import Verif.Spec.Business
import Verif.Spec.Ledger
/-! # Specification vocabulary for the year end procedure -/
namespace Auxi.Business.Spec
open Auxi.Business Ledger Ledger.Spec

/-- The account a path denotes: walk down by names, first match at each level. -/
def accountAt (c : Chart) (p : Str) : Option Account := walk c.str.accounts (segments p)

/-- The path denotes a revenue or expense account. -/
def IncomeAcc (c : Chart) (p : Str) : Bool := match accountAt c p with
  | some a => a.accountType = .revenue || a.accountType = .expense
  | none => false

/-- The path denotes an account below the second or third top level account (sales, cost of sales). -/
def TradingAcc (c : Chart) (p : Str) : Bool := (accountAt c p).isSome && (segments p).length ≥ 2 &&
  (match (segments p).head? with
   | none => false
   | some n => c.str.accounts.findIdx? (fun a => a.name = n) = some 1 ||
               c.str.accounts.findIdx? (fun a => a.name = n) = some 2)

/-- The accounts of the chart result from a history of account operations (not renaming a top level account to ""). -/
def ReachableChart (c : Chart) : Prop := ∃ ops, (∀ op ∈ ops, TopNonempty op) ∧ c.str.accounts = runOps ops

/-- No transaction has an income statement account on both sides. -/
def OneIncomeSide (c : Chart) (txs : List Tx) : Prop := ∀ t ∈ txs, ¬ (IncomeAcc c t.dt = true ∧ IncomeAcc c t.cr = true)

/-- Net income: credits less debits of all revenue and expense accounts. -/
def netIncome (c : Chart) (txs : List Tx) : ℚ :=
  (txs.map (fun t => (if IncomeAcc c t.cr then t.amount else 0) - (if IncomeAcc c t.dt then t.amount else 0))).sum

/-- The transactions dated in `[a, b)` (dates have a resolution of one second for this purpose, as the procedure
looks at `[a, b - 1 s]`). -/
def inWindow (a b : Int) (txs : List Tx) : List Tx := txs.filter (fun t => a ≤ t.date ∧ t.date ≤ b - 1000000)

end Auxi.Business.Spec

namespace Auxi.Business.Spec
open Auxi.Business Time Calendar

/-- The start of the `q`-th financial year: a year after the start of the one before. -/
def yearStart (t : Int) : Nat → Int
  | 0 => t
  | q + 1 => addYears (yearStart t q) 1

/-- The years closed while an entity is run in periods `i, i+1, …, i+k-1`: seen from the change of the entity's
"previous year end" across a period. -/
def yearsClosed (clk : Clock) : Nat → Nat → Entity → List (Int × Int)
  | 0, _, _ => []
  | k + 1, i, e => match e.run (clockAt clk i) with
    | .error _ => []
    | .ok e' => (if e'.prevYearEnd ≠ e.prevYearEnd then [(e.prevYearEnd, e.currYearEnd)] else []) ++
        yearsClosed clk k (i + 1) e'

end Auxi.Business.Spec

namespace Auxi.Business.Spec
open Auxi.Business Ledger

/-- The path denotes a revenue account outside sales and cost of sales. -/
def PlainRevenue (c : Chart) (p : Str) : Prop :=
  (∃ a, accountAt c p = some a ∧ a.accountType = .revenue) ∧ TradingAcc c p = false

/-- No transaction debits or credits the account. -/
def Untouched (p : Str) (txs : List Tx) : Prop := ∀ t ∈ txs, t.cr ≠ p ∧ t.dt ≠ p

/-- Gross profit: credits less debits of all sales and cost of sales accounts. -/
def grossProfit (c : Chart) (txs : List Tx) : ℚ :=
  (txs.map (fun t => (if TradingAcc c t.cr then t.amount else 0) - (if TradingAcc c t.dt then t.amount else 0))).sum

end Auxi.Business.Spec
