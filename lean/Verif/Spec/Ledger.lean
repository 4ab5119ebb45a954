import Verif.Ledger

/-!
# Specification vocabulary for account trees (independent of the cached paths and of the lookup code)
-/
namespace Auxi.Ledger.Spec
open Auxi.Ledger

/-- The names met on the way from the top level list to a position. -/
def namesAlong (l : List Account) : List Nat → Option (List Str)
  | [] => some []
  | i :: p => match l[i]? with
    | none => none
    | some a => (namesAlong a.accounts p).map (a.name :: ·)

/-- `'/'.join(names)`. -/
def joinSlash : List Str → Str
  | [] => []
  | [a] => a
  | a :: b :: r => a ++ '/' :: joinSlash (b :: r)

/-- Walk down the tree by names, taking the first sibling with the wanted name at each level. -/
def walk (l : List Account) : List Str → Option Account
  | [] => none
  | [n] => l.find? (fun a => a.name = n)
  | n :: m :: r => match l.find? (fun a => a.name = n) with
    | none => none
    | some a => walk a.accounts (m :: r)

/-- The segments of a path string: split at every `'/'` (never empty). -/
def segments : Str → List Str
  | [] => [[]]
  | c :: cs => if c = '/' then [] :: segments cs else
      match segments cs with
      | [] => [[c]]
      | s :: r => (c :: s) :: r

/-- The operation does not rename a top level account to the empty string. -/
def TopNonempty : Op → Prop
  | .rename [_] n => n ≠ []
  | _ => True

/-- Siblings have different, `'/'`-free names, everywhere in the tree. -/
def NiceNames (l : List Account) : Prop :=
  ∀ pos kids, (pos = [] ∧ kids = l ∨ ∃ a, forestAt? l pos = some a ∧ kids = a.accounts) →
    (kids.map Account.name).Nodup ∧ ∀ c ∈ kids, '/' ∉ c.name

/-- The chart of accounts of a new ledger: name, number and type of each top level account, in order, with the names and
numbers of the accounts below it. -/
def chart : List (String × String × AccountType × List (String × String)) := [
  ("Unallocated Income Statement", "I05", .revenue, [("Gross Profit", "0000"), ("Income Summary", "0010")]),
  ("Sales", "I10", .revenue, []), ("Cost of Sales", "I15", .expense, []), ("Other Income", "I20", .revenue, []),
  ("Expense", "I25", .expense, []), ("Tax", "I30", .expense, [("Income Tax Expense", "0000")]), ("Dividends", "I35", .expense, []),
  ("Share Capital", "B10", .asset, []), ("Retained Income", "B15", .equity, [("Retained Earnings", "0000")]),
  ("Shareholders Loan", "B20", .liability, []), ("Long Term Borrowing", "B25", .liability, []),
  ("Other Long Term Liabilities", "B30", .liability, []), ("Fixed Assets", "B35", .asset, []), ("Investments", "B40", .asset, []),
  ("Other Fixed Assets", "B45", .asset, []), ("Inventory", "B50", .asset, []), ("Accounts Receivable", "B55", .asset, []),
  ("Bank", "B60", .asset, [("Default", "0000")]), ("Other Current Assets", "B65", .asset, []), ("Account Payable", "B70", .liability, []),
  ("Taxation", "B75", .liability, []), ("Other Current Liabilities", "B80", .liability, [])]

end Auxi.Ledger.Spec
