import Verif.Reports
import Verif.Spec.Ledger

/-!
# Specification vocabulary for reports
-/
namespace Auxi.Reports.Spec
open Auxi.Reports Auxi.Ledger Auxi.Business

/-- The type of the account that a path denotes in a structure (walk by names, first match at each level). -/
def typeOf (s : Structure) (p : Str) : Option AccountType :=
  (Ledger.Spec.walk s.accounts (Ledger.Spec.segments p)).map Account.accountType

/-- The same for a possibly missing path. -/
def typeOf? (s : Structure) : Option Str → Option AccountType
  | none => none
  | some p => typeOf s p

/-- `a` is not later than `b` (values of the same kind). -/
def notAfter : When → When → Bool
  | .date a, .date b => a ≤ b
  | .datetime a, .datetime b => a ≤ b
  | _, _ => false

/-- The transactions dated up to `stop`. -/
def upTo (stop : When) (txs : List RTx) : List RTx := txs.filter (fun t => notAfter t.date stop)

/-- Selected by a transaction list or income statement: source path begins with `comp`, date in `[start, stop]`. -/
def selected (comp : Str) (start stop : When) (t : RTx) : Bool :=
  (match t.source with
   | some s => comp.isPrefixOf s
   | none => false) && notAfter start t.date && notAfter t.date stop

/-- Credits minus debits of one account. -/
def netCredit (p : Str) (txs : List RTx) : ℚ :=
  (txs.map (fun t => (if t.cr = some p then t.amount else 0) - (if t.dt = some p then t.amount else 0))).sum

/-- Credits minus debits of all accounts whose type satisfies `P`. -/
def netCreditOf (s : Structure) (P : AccountType → Bool) (txs : List RTx) : ℚ :=
  (txs.map (fun t => (if (typeOf? s t.cr).any P then t.amount else 0) - (if (typeOf? s t.dt).any P then t.amount else 0))).sum

/-- Revenue and expense accounts. -/
def isIncome : AccountType → Bool
  | .revenue => true
  | .expense => true
  | _ => false

/-- The account occurs in one of the transactions. -/
def Touched (p : Str) (txs : List RTx) : Prop := ∃ t ∈ txs, t.cr = some p ∨ t.dt = some p

/-- The entry of a dict. -/
def lookup (p : Str) (d : Dict Str) : Option ℚ := (d.find? (fun e => e.1 = p)).map (·.2)

/-- The right hand part (three columns) of a balance sheet. -/
def rightPart (b : Sheet) : List (Cell × Cell × Cell) :=
  [(tx "Liabilities", tx "", tx ""), (tx "-----------", tx "", tx "")] ++
  b.liabilities.map (fun e => (.text e.1, .money e.2, tx "")) ++
  [(tx "Total liabilities", tx "", .money (dictSum b.liabilities)), (tx "-----------------", tx "", tx ""),
   (tx "Owners' Equity", tx "", tx ""), (tx "--------------", tx "", tx "")] ++
  b.equity.map (fun e => (.text e.1, .money e.2, tx "")) ++
  [(tx "Total owners' equities", tx "", .money (dictSum b.equity))]

/-- The left hand part (two columns) of a balance sheet. -/
def leftPart (b : Sheet) : List (Cell × Cell) := b.assets.map (fun e => (.text e.1, .money e.2))

/-- Two lists of cells put side by side, the shorter padded with empty cells. -/
def sideBySide (l : List (Cell × Cell)) (r : List (Cell × Cell × Cell)) : Table :=
  (List.range (max l.length r.length)).map (fun i =>
    let a := l[i]?.getD (tx "", tx "")
    let b := r[i]?.getD (tx "", tx "", tx "")
    [a.1, a.2, b.1, b.2.1, b.2.2])

/-- The first transaction to touch the account puts it on the given side (`true`: credit). A transaction with the
account on both sides counts as a credit. -/
def firstOnSide (credit : Bool) (p : Str) (txs : List RTx) : Prop :=
  match txs.find? (fun t => t.cr = some p ∨ t.dt = some p) with
  | none => True
  | some t => if credit then t.cr = some p else t.cr ≠ some p

/-- Not a closing transaction. -/
def ordinary (t : RTx) : Bool := !t.closingCr && !t.closingDt

/-- The text of an account's kind in a report. -/
def kindText : AccountType → Str
  | .asset => "asset".toList
  | .equity => "equity".toList
  | .expense => "expense".toList
  | .liability => "liability".toList
  | .revenue => "revenue".toList

/-- The account's number starts with the character. -/
def numberStarts (ch : Char) (a : Account) : Bool := (a.number.getD []).head? == some ch

mutual
/-- Rows for an account and everything below it: one row per account, siblings in the order of creation. -/
def treeRows (pre : Str) : Account → Table
  | ⟨n, d, num, t, _, _, cs⟩ =>
    [.text (kindText t), .text (pre ++ num.getD []), .text n, optCell d] :: forestRows (num.getD [] ++ ['/']) cs
/-- Rows for a list of accounts. -/
def forestRows (pre : Str) : List Account → Table
  | [] => []
  | c :: cs => treeRows pre c ++ forestRows pre cs
end

mutual
/-- Every account in the tree has a number. -/
def numbered : Account → Bool
  | ⟨_, _, num, _, _, _, cs⟩ => num.isSome && numberedAll cs
/-- Every account of the forest has a number. -/
def numberedAll : List Account → Bool
  | [] => true
  | c :: cs => numbered c && numberedAll cs
end

end Auxi.Reports.Spec
