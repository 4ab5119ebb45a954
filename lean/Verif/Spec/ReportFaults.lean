import Verif.Spec.Reports

/-! # Specification: what is wrong with a transaction -/
namespace Auxi.Reports.Spec
open Auxi.Reports Auxi.Ledger Auxi.Business

/-- What is wrong with the account of a transaction: it is missing, or the chart does not have it (then the error depends on whether it is below an account that the chart has, see C05). -/
def accountFault (s : Structure) : Option Str → Option PyErr
  | none => some .typeError
  | some p => if (typeOf s p).isSome then none
    else if '/' ∈ p ∧ ∃ a ∈ s.accounts, some a.name = (Ledger.Spec.segments p).head? then some .indexError else some .attributeError

/-- What is wrong with the two accounts of a transaction; that of the credit comes first. -/
def accountsFault (s : Structure) (t : RTx) : Option PyErr := (accountFault s t.cr).or (accountFault s t.dt)

/-- What is wrong with a transaction on a balance sheet: a date that cannot be compared, or, if it is not after the end, an account. -/
def sheetFault (s : Structure) (stop : When) (t : RTx) : Option PyErr :=
  if t.date.isDate ≠ stop.isDate then some .typeError else if notAfter t.date stop then accountsFault s t else none

/-- What is wrong with the date of a transaction. -/
def periodFault (start stop : When) (t : RTx) : Option PyErr :=
  if t.date.isDate ≠ start.isDate then some .typeError else if notAfter start t.date ∧ t.date.isDate ≠ stop.isDate then some .typeError else none

/-- What is wrong with a transaction on a transaction list: it has no source, or it is of the component and its date cannot be compared. -/
def listFault (comp : Str) (start stop : When) (t : RTx) : Option PyErr :=
  match t.source with
  | none => some .attributeError
  | some src => if comp.isPrefixOf src then periodFault start stop t else none

/-- What is wrong with a transaction on an income statement: as on a transaction list, or, if it is selected, an account. -/
def incomeFault (s : Structure) (comp : Str) (start stop : When) (t : RTx) : Option PyErr :=
  match t.source with
  | none => some .attributeError
  | some src => if comp.isPrefixOf src then (periodFault start stop t).or (if selected comp start stop t then accountsFault s t else none) else none

end Auxi.Reports.Spec
