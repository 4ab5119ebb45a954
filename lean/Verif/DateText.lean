import Verif.Reports

/-!
# Dates given as text: `/repo/auxi/core/helpers.py:23-34` and `/repo/auxi/modelling/business/structure.py:50-54`

Both functions read a `str` with `datetime.strptime(date, '%Y-%m-%d')`.  CPython's `_strptime` turns that format into the
regular expression `(\d\d\d\d)-(1[0-2]|0[1-9]|[1-9])-(3[0-1]|[1-2]\d|0[1-9]|[1-9]| [1-9])`, matches it at the start of the
text, refuses text left over and builds the date from the three numbers; every refusal is a `ValueError`.
Simplification: `\d` also matches decimal digits of other scripts; here only ASCII digits count.
-/
namespace Auxi.DateText
open Calendar Reports

/-- What a caller may pass as a date: a `str`, or anything else, which is handed on (here: a `date` or `datetime`);
`/repo/auxi/core/helpers.py:31-34`. -/
inductive Arg
  | text (s : Str)
  | obj (w : When)
  deriving DecidableEq

/-- `\d`, with `int()` of it (`/repo/auxi/core/helpers.py:32`). -/
def digit? (c : Char) : Option Int := if '0'.toNat ≤ c.toNat ∧ c.toNat ≤ '9'.toNat then some (c.toNat - '0'.toNat : Nat) else none

/-- `(\d\d\d\d)`: the year and the text after it (`%Y` in `/repo/auxi/core/helpers.py:32`). -/
def year4 : Str → Option (Int × Str)
  | a :: b :: c :: d :: r => match digit? a, digit? b, digit? c, digit? d with
    | some a, some b, some c, some d => some (1000 * a + 100 * b + 10 * c + d, r)
    | _, _, _, _ => none
  | _ => none

/-- One literal character of the format: the `-` (`/repo/auxi/core/helpers.py:32`). -/
def dash : Str → Option Str
  | '-' :: r => some r
  | _ => none

/-- `[1-9]` at the start (`%m`, `%d` in `/repo/auxi/core/helpers.py:32`). -/
def one : Str → Option (Int × Str)
  | a :: r => match digit? a with
    | some a => if 1 ≤ a then some (a, r) else none
    | none => none
  | [] => none

/-- Two digits whose number lies in the range: one of the alternatives `1[0-2]`, `0[1-9]`, `3[0-1]`, `[1-2]\d`
(`%m`, `%d` in `/repo/auxi/core/helpers.py:32`). -/
def two (lo hi : Int) : Str → Option (Int × Str)
  | a :: b :: r => match digit? a, digit? b with
    | some a, some b => if lo ≤ 10 * a + b ∧ 10 * a + b ≤ hi then some (10 * a + b, r) else none
    | _, _ => none
  | _ => none

/-- `(1[0-2]|0[1-9]|[1-9])`, the first alternative that matches; what follows is a `-`, so no other alternative can be
needed (`%m` in `/repo/auxi/core/helpers.py:32`). -/
def month? (s : Str) : Option (Int × Str) := (two 10 12 s).or ((two 1 9 s).or (one s))

/-- ` [1-9]` at the start (`%d` in `/repo/auxi/core/helpers.py:32`). -/
def spaced : Str → Option (Int × Str)
  | ' ' :: r => one r
  | _ => none

/-- `(3[0-1]|[1-2]\d|0[1-9]|[1-9]| [1-9])`, the first alternative that matches (`%d` in `/repo/auxi/core/helpers.py:32`). -/
def day? (s : Str) : Option (Int × Str) := (two 30 31 s).or ((two 10 29 s).or ((two 1 9 s).or ((one s).or (spaced s))))

/-- The numbers in the text (`/repo/auxi/core/helpers.py:32`; `_strptime`: no match, and text left over, are `ValueError`s). -/
def fields (s : Str) : Option (Int × Int × Int) := do
  let (y, r) ← year4 s
  let r ← dash r
  let (m, r) ← month? r
  let r ← dash r
  let (d, r) ← day? r
  if r = [] then some (y, m, d) else none

/-- `datetime.strptime(date, '%Y-%m-%d')`, as a day number: the fields must be those of a date in the years 1 to 9999
(`/repo/auxi/core/helpers.py:32`, `/repo/auxi/modelling/business/structure.py:52`). -/
def strptime (s : Str) : Res Int := match fields s with
  | none => .error .valueError
  | some (y, m, d) => if 1 ≤ y ∧ d ≤ dim y m then .ok (dayNumber y m d) else .error .valueError

/-- `/repo/auxi/core/helpers.py:23-34` `get_date`: a text becomes a `date`. -/
def getDate : Arg → Res When
  | .text s => match strptime s with
    | .error e => .error e
    | .ok n => .ok (.date n)
  | .obj w => .ok w

/-- `/repo/auxi/modelling/business/structure.py:50-54` `Activity._get_date_`: a text becomes a `datetime`, midnight of that day. -/
def activityDate : Arg → Res When
  | .text s => match strptime s with
    | .error e => .error e
    | .ok n => .ok (.datetime (n * dayUs))
  | .obj w => .ok w

/-- `TransactionList(data_source, start, end, component_path)` and its table:
`/repo/auxi/modelling/financial/reporting.py:92-119`. -/
def transactionListFrom (comp : Str) (start stop : Arg) (txs : List RTx) : Res Table :=
  match getDate start with
  | .error e => .error e
  | .ok a => match getDate stop with
    | .error e => .error e
    | .ok b => transactionList comp a b txs

/-- `BalanceSheet(data_source, end)` and its table: `/repo/auxi/modelling/financial/reporting.py:132-233`. -/
def balanceSheetTo (s : Ledger.Structure) (stop : Arg) (txs : List RTx) : Res Table := match getDate stop with
  | .error e => .error e
  | .ok b => balanceSheet s b txs

/-- `IncomeStatement(data_source, start, end, component_path)` and its table:
`/repo/auxi/modelling/financial/reporting.py:249-331`. -/
def incomeStatementFrom (s : Ledger.Structure) (comp : Str) (start stop : Arg) (txs : List RTx) : Res Table :=
  match getDate start with
  | .error e => .error e
  | .ok a => match getDate stop with
    | .error e => .error e
    | .ok b => incomeStatement s comp a b txs

end Auxi.DateText
