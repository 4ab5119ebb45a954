import Verif.ReportsFloat

/-!
# The income statement with the arithmetic of the machine

`/repo/auxi/modelling/financial/reporting.py:258-331` with every addition and subtraction of `float`s rounded by `rnd`.  Simplifications as in `Verif.ReportsFloat`.
-/
namespace Auxi.ReportsFloat
open Auxi Auxi.Reports Auxi.Ledger Auxi.Business Auxi.Rounding

variable (rnd : ℚ → ℚ)

/-- `if k in d: d[k] += v else: d[k] = w` (`/repo/auxi/modelling/financial/reporting.py:271-274,276-279,283-286,288-291`). -/
def updF (k : Str) (v w : ℚ) : Dict Str → Dict Str
  | [] => [(k, w)]
  | (k', x) :: d => if k' = k then (k', rnd (x + v)) :: d else (k', x) :: updF k v w d

/-- The credit side (`/repo/auxi/modelling/financial/reporting.py:270-279`). -/
def incCreditF (b : Income) (ty : AccountType) (acc : Str) (amount : ℚ) : Income :=
  match ty with
  | .revenue => { b with income := updF rnd acc amount amount b.income }
  | .expense => { b with expenses := updF rnd acc (-amount) amount b.expenses }
  | _ => b

/-- The debit side (`/repo/auxi/modelling/financial/reporting.py:282-291`). -/
def incDebitF (b : Income) (ty : AccountType) (acc : Str) (amount : ℚ) : Income :=
  match ty with
  | .revenue => { b with income := updF rnd acc (-amount) amount b.income }
  | .expense => { b with expenses := updF rnd acc amount amount b.expenses }
  | _ => b

/-- One selected transaction (`/repo/auxi/modelling/financial/reporting.py:268-291`). -/
def incAddF (b : Income) (t : RTx) (cty dty : AccountType) : Income :=
  let b := if t.closingCr = false ∧ t.closingDt = false ∧ t.cr ≠ some [] then incCreditF rnd b cty (t.cr.getD []) t.amount else b
  if t.closingCr = false ∧ t.closingDt = false ∧ t.dt ≠ some [] then incDebitF rnd b dty (t.dt.getD []) t.amount else b

/-- The loop of `IncomeStatement._sum_amounts_per_account_` (`/repo/auxi/modelling/financial/reporting.py:262-292`). -/
def incomeLoopF (s : Structure) (comp : Str) (start stop : When) (b : Income) : List RTx → Res Income
  | [] => .ok b
  | t :: ts => match t.source with
    | none => .error .attributeError
    | some src =>
      if comp.isPrefixOf src then
        match within start stop t.date with
        | .error e => .error e
        | .ok false => incomeLoopF s comp start stop b ts
        | .ok true => match acctType s t.cr with
          | .error e => .error e
          | .ok cty => match acctType s t.dt with
            | .error e => .error e
            | .ok dty => incomeLoopF s comp start stop (incAddF rnd b t cty dty) ts
      else incomeLoopF s comp start stop b ts

/-- `IncomeStatement._sum_amounts_per_account_` (`/repo/auxi/modelling/financial/reporting.py:258-292`). -/
def incomeSumsF (s : Structure) (comp : Str) (start stop : When) (txs : List RTx) : Res Income := incomeLoopF rnd s comp start stop ⟨[], []⟩ txs

/-- `cos_sum` (`/repo/auxi/modelling/financial/reporting.py:309-313`). -/
def cosSumF (b : Income) : ℚ := sumF rnd (b.expenses.filter (fun e => isCos e.1))

/-- The number in the row `Gross Revenues` (`/repo/auxi/modelling/financial/reporting.py:315-316`). -/
def grossF (b : Income) : ℚ := rnd (sumF rnd b.income - cosSumF rnd b)

/-- The number in the row `Total Expenses` (`/repo/auxi/modelling/financial/reporting.py:325`). -/
def otherF (b : Income) : ℚ := rnd (sumF rnd b.expenses - cosSumF rnd b)

/-- `net_income` (`/repo/auxi/modelling/financial/reporting.py:299`). -/
def netF (b : Income) : ℚ := rnd (sumF rnd b.income - sumF rnd b.expenses)

/-- The last row (`/repo/auxi/modelling/financial/reporting.py:327-330`): in parentheses or not, and the printed cents. -/
def netPrinted (b : Income) : Bool × ℤ := (decide (netF rnd b < 0), cents |netF rnd b|)

end Auxi.ReportsFloat
