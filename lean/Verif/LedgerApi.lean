import Verif.DateText

/-!
# `GeneralLedger` of `/repo/auxi/modelling/financial/des.py:356-451`

The ledger object itself, with the default arguments of its methods; the reports are those of `Reports` with the bounds read as in `DateText`.
-/
namespace Auxi.LedgerApi
open Auxi Auxi.Ledger Auxi.Business Auxi.Reports Auxi.DateText

/-- `/repo/auxi/modelling/financial/des.py:365-368` `GeneralLedger.__init__`: the name and description play no part. -/
structure GL where
  /-- `self.structure` -/
  structure_ : Structure
  /-- `self.transactions` -/
  transactions : List RTx

/-- `GeneralLedger(name, structure)` (`/repo/auxi/modelling/financial/des.py:365-368`). -/
def GL.new (s : Structure) : GL := ⟨s, []⟩

/-- `create_transaction` with its default arguments (`/repo/auxi/modelling/financial/des.py:370-391`, `Transaction.__init__` 161-175): the transaction and the ledger afterwards.
`datetime.min.date()` is day 0. -/
def GL.create (g : GL) (name : Str) (description : Option Str := none) (date : When := .date 0) (dt cr source : Option Str := none) (amount : ℚ := 0) : RTx × GL :=
  let t : RTx := { name, description, date, dt, cr, source, amount }
  (t, { g with transactions := g.transactions ++ [t] })

/-- `transaction_list` with its default arguments (`/repo/auxi/modelling/financial/des.py:393-413`). -/
def GL.transactionList (g : GL) (out : Style → Table → Str) (start : Arg := .obj (.datetime dtMin)) (stop : Arg := .obj (.datetime dtMax)) (format : Format := .printout)
    (comp : Str := []) (path : Option Str := none) : Res (List Effect × Option Str) :=
  render out (transactionListFrom comp start stop g.transactions) path format

/-- `balance_sheet` with its default arguments (`/repo/auxi/modelling/financial/des.py:415-429`). -/
def GL.balanceSheet (g : GL) (out : Style → Table → Str) (stop : Arg := .obj (.datetime dtMax)) (format : Format := .printout) (path : Option Str := none) : Res (List Effect × Option Str) :=
  render out (balanceSheetTo g.structure_ stop g.transactions) path format

/-- `income_statement` with its default arguments (`/repo/auxi/modelling/financial/des.py:431-451`). -/
def GL.incomeStatement (g : GL) (out : Style → Table → Str) (start : Arg := .obj (.datetime dtMin)) (stop : Arg := .obj (.datetime dtMax)) (format : Format := .printout)
    (comp : Str := []) (path : Option Str := none) : Res (List Effect × Option Str) :=
  render out (incomeStatementFrom g.structure_ comp start stop g.transactions) path format

/-- `GeneralLedgerStructure.report` (`/repo/auxi/modelling/financial/des.py:341-353`). -/
def structureReport (s : Structure) (out : Style → Table → Str) (format : Format := .printout) (path : Option Str := none) : Res (List Effect × Option Str) :=
  render out (Reports.structureReport s) path format

end Auxi.LedgerApi
