import Verif.Reports
import Verif.Rounding

/-!
# Reports with the arithmetic of the machine

The sums of `/repo/auxi/modelling/financial/reporting.py` with every addition of `float`s rounded by `rnd` (`rnd64` of `Verif.Rounding` for Python's floats), and `"%.2f"`.
Simplifications: amounts are `float`s (an `int` amount below `2 ** 53` behaves as one); `sum` adds from left to right; dictionaries are in order of insertion (Python ≥ 3.7).
The layout of the tables is that of `Verif.Reports`.
-/
namespace Auxi.ReportsFloat
open Auxi Auxi.Reports Auxi.Ledger Auxi.Business Auxi.Rounding

variable (rnd : ℚ → ℚ)

/-- `if k in d: d[k] += v else: d[k] = v` (`/repo/auxi/modelling/financial/reporting.py:148-177`). -/
def addF (k : Str) (v : ℚ) : Dict Str → Dict Str
  | [] => [(k, v)]
  | (k', w) :: d => if k' = k then (k', rnd (w + v)) :: d else (k', w) :: addF k v d

/-- `/repo/auxi/modelling/financial/reporting.py:148-162` the credit side. -/
def creditF (b : Sheet) (ty : AccountType) (acc : Str) (amount : ℚ) : Sheet :=
  match ty with
  | .asset => { b with assets := addF rnd acc (-amount) b.assets }
  | .liability => { b with liabilities := addF rnd acc amount b.liabilities }
  | .equity => { b with equity := addF rnd acc amount b.equity }
  | _ => b

/-- `/repo/auxi/modelling/financial/reporting.py:163-177` the debit side. -/
def debitF (b : Sheet) (ty : AccountType) (acc : Str) (amount : ℚ) : Sheet :=
  match ty with
  | .asset => { b with assets := addF rnd acc amount b.assets }
  | .liability => { b with liabilities := addF rnd acc (-amount) b.liabilities }
  | .equity => { b with equity := addF rnd acc (-amount) b.equity }
  | _ => b

/-- `/repo/auxi/modelling/financial/reporting.py:144-179` the loop of `BalanceSheet._sum_amounts_per_account_`. -/
def sheetLoopF (s : Structure) (stop : When) (b : Sheet) : List RTx → Res Sheet
  | [] => .ok b
  | t :: ts => match t.date.le stop with
    | .error e => .error e
    | .ok false => sheetLoopF s stop b ts
    | .ok true => match acctType s t.cr with
      | .error e => .error e
      | .ok cty => match acctType s t.dt with
        | .error e => .error e
        | .ok dty => sheetLoopF s stop (debitF rnd (creditF rnd b cty (t.cr.getD []) t.amount) dty (t.dt.getD []) t.amount) ts

/-- `/repo/auxi/modelling/financial/reporting.py:138-179` `BalanceSheet._sum_amounts_per_account_`. -/
def sheetSumsF (s : Structure) (stop : When) (txs : List RTx) : Res Sheet := sheetLoopF rnd s stop ⟨[], [], []⟩ txs

/-- `sum(d.values())` (`/repo/auxi/modelling/financial/reporting.py:189-191,297-298`). -/
def sumF (d : Dict Str) : ℚ := d.foldl (fun a e => rnd (a + e.2)) 0

/-- The total of the left hand side (`/repo/auxi/modelling/financial/reporting.py:189,228`). -/
def leftTotal (b : Sheet) : ℚ := sumF rnd b.assets

/-- The total of the right hand side (`/repo/auxi/modelling/financial/reporting.py:190-191,229`). -/
def rightTotal (b : Sheet) : ℚ := rnd (sumF rnd b.liabilities + sumF rnd b.equity)

/-- `"%.2f" % x` (`/repo/auxi/modelling/financial/reporting.py:115,119,228-229`) as a number of cents: the exact value of the float is rounded to the nearest, ties to even. -/
def cents (x : ℚ) : ℤ := roundEven (100 * x)

/-- `amount_tot` of a transaction list (`/repo/auxi/modelling/financial/reporting.py:103,117`), for the listed amounts in order. -/
def listTotal (amounts : List ℚ) : ℚ := amounts.foldl (fun a x => rnd (a + x)) 0

end Auxi.ReportsFloat
