import Mathlib.Data.List.Sort
import Verif.Business

/-!
# Reports: `/repo/auxi/modelling/financial/reporting.py` and `/repo/auxi/core/reporting.py`

A table is a list of rows of cells.  `"%.2f" % x` is kept as the exact number (`Cell.money x`); the text made of it is in
`Money`.
-/
namespace Auxi.Reports
open Ledger Business

/-- A Python `date` (day number) or `datetime` (microseconds): `tx_date` and the report bounds may be either,
`/repo/auxi/modelling/financial/des.py:163`, `/repo/auxi/core/helpers.py:23-34`. -/
inductive When
  | date (day : Int)
  | datetime (us : Int)
  deriving DecidableEq

/-- Ordering comparison `a <= b`: comparing a `date` with a `datetime` raises `TypeError`
(`/repo/auxi/modelling/financial/reporting.py:108,145,265`). -/
def When.le : When → When → Res Bool
  | .date a, .date b => .ok (a ≤ b)
  | .datetime a, .datetime b => .ok (a ≤ b)
  | _, _ => .error .typeError

/-- Is it a `date`? (`/repo/auxi/modelling/financial/reporting.py:105`) -/
def When.isDate : When → Bool
  | .date _ => true
  | .datetime _ => false

/-- The number by which values of one kind are ordered. (`/repo/auxi/modelling/financial/reporting.py:105`) -/
def When.key : When → Int
  | .date a => a
  | .datetime a => a

/-- `/repo/auxi/modelling/financial/des.py:145-175` `Transaction` with the optional attributes left optional. -/
structure RTx where
  name : Str
  description : Option Str
  date : When
  dt : Option Str
  cr : Option Str
  source : Option Str
  amount : ℚ
  closingDt : Bool := false
  closingCr : Bool := false
  deriving DecidableEq

/-- A transaction posted by a run, as the reports see it (`/repo/auxi/modelling/financial/des.py:388-390`). -/
def RTx.ofTx (t : Tx) : RTx :=
  { name := t.name, description := t.description, date := .datetime t.date, dt := some t.dt, cr := some t.cr,
    source := some t.source, amount := t.amount, closingDt := t.closingDt, closingCr := t.closingCr }

/-- A table cell: text, an amount formatted with two decimals, an amount in parentheses, a date, `None`.
(`/repo/auxi/modelling/financial/reporting.py:58-60,113-118,198-229,304-330`) -/
inductive Cell
  | text (s : Str)
  | money (q : ℚ)
  | paren (q : ℚ)
  | date (w : When)
  | none
  deriving DecidableEq

/-- Text cell from a literal (`/repo/auxi/modelling/financial/reporting.py:101`). -/
def tx (s : String) : Cell := .text s.toList

/-- An optional string put in a cell (`/repo/auxi/modelling/financial/reporting.py:60,114`). -/
def optCell : Option Str → Cell
  | some s => .text s
  | .none => .none

/-- Result of `_generate_table_` (`/repo/auxi/core/reporting.py:47-48`). -/
abbrev Table := List (List Cell)

/-! ## Transaction list -/

/-- `sorted(tx_list, key=lambda v: v.tx_date)` (`/repo/auxi/modelling/financial/reporting.py:105`): a stable sort; if
dates of both kinds occur some comparison of the two kinds happens and raises. -/
def sortByDate (txs : List RTx) : Res (List RTx) :=
  if txs.any (fun t => t.date.isDate) && txs.any (fun t => !t.date.isDate) then .error .typeError
  else .ok (txs.insertionSort (fun a b => a.date.key ≤ b.date.key))

/-- `start <= d <= end` (`/repo/auxi/modelling/financial/reporting.py:108,265`). -/
def within (start stop d : When) : Res Bool := do
  if ← start.le d then d.le stop else pure false

/-- `/repo/auxi/modelling/financial/reporting.py:109-116` the row of a transaction. -/
def txRow (t : RTx) (source : Str) : List Cell :=
  [.date t.date, .text source, .text (if t.name.isSuffixOf source then [] else t.name), optCell t.dt, optCell t.cr,
   .money t.amount, .text (t.description.getD [])]

/-- The loop `/repo/auxi/modelling/financial/reporting.py:105-117`: rows and total. -/
def txRows (comp : Str) (start stop : When) : List RTx → Res (Table × ℚ)
  | [] => .ok ([], 0)
  | t :: ts => match t.source with
    | none => .error .attributeError
    | some s =>
      if comp.isPrefixOf s then
        match within start stop t.date with
        | .error e => .error e
        | .ok true => match txRows comp start stop ts with
          | .error e => .error e
          | .ok (rows, tot) => .ok (txRow t s :: rows, t.amount + tot)
        | .ok false => txRows comp start stop ts
      else txRows comp start stop ts

/-- `/repo/auxi/modelling/financial/reporting.py:100-119` `TransactionList._generate_table_`. -/
def transactionList (comp : Str) (start stop : When) (txs : List RTx) : Res Table :=
  match sortByDate txs with
  | .error e => .error e
  | .ok l => match txRows comp start stop l with
    | .error e => .error e
    | .ok (rows, tot) => .ok (
        [tx "Date", tx "Source", tx "Tx Name", tx "Debit Account", tx "Credit Account", tx "Amount", tx "Description"]
        :: rows ++ [[tx "", tx "", tx "Total", tx "", tx "", .money tot, tx ""]])

/-! ## Balance sheet -/

/-- `gls.get_account(x).account_type` (`/repo/auxi/modelling/financial/reporting.py:146-147,266-267`):
`'/' in None` is a `TypeError`, `None.account_type` an `AttributeError`. -/
def acctType (s : Structure) : Option Str → Res AccountType
  | none => .error .typeError
  | some p => match getRef s p with
    | .error e => .error e
    | .ok none => .error .attributeError
    | .ok (some r) => .ok r.accountType

/-- The three dicts of `/repo/auxi/modelling/financial/reporting.py:140-142` (insertion ordered). -/
structure Sheet where
  assets : Dict Str
  liabilities : Dict Str
  equity : Dict Str

/-- `/repo/auxi/modelling/financial/reporting.py:148-162` the credit side. -/
def Sheet.credit (b : Sheet) (ty : AccountType) (acc : Str) (amount : ℚ) : Sheet :=
  match ty with
  | .asset => { b with assets := dictAdd acc (-amount) b.assets }
  | .liability => { b with liabilities := dictAdd acc amount b.liabilities }
  | .equity => { b with equity := dictAdd acc amount b.equity }
  | _ => b

/-- `/repo/auxi/modelling/financial/reporting.py:163-177` the debit side. -/
def Sheet.debit (b : Sheet) (ty : AccountType) (acc : Str) (amount : ℚ) : Sheet :=
  match ty with
  | .asset => { b with assets := dictAdd acc amount b.assets }
  | .liability => { b with liabilities := dictAdd acc (-amount) b.liabilities }
  | .equity => { b with equity := dictAdd acc (-amount) b.equity }
  | _ => b

/-- `/repo/auxi/modelling/financial/reporting.py:144-179` the loop of `BalanceSheet._sum_amounts_per_account_`. -/
def sheetLoop (s : Structure) (stop : When) (b : Sheet) : List RTx → Res Sheet
  | [] => .ok b
  | t :: ts => match t.date.le stop with
    | .error e => .error e
    | .ok false => sheetLoop s stop b ts
    | .ok true => match acctType s t.cr with
      | .error e => .error e
      | .ok cty => match acctType s t.dt with
        | .error e => .error e
        | .ok dty => sheetLoop s stop
            ((b.credit cty (t.cr.getD []) t.amount).debit dty (t.dt.getD []) t.amount) ts

/-- `/repo/auxi/modelling/financial/reporting.py:138-179` `BalanceSheet._sum_amounts_per_account_`. -/
def sheetSums (s : Structure) (stop : When) (txs : List RTx) : Res Sheet := sheetLoop s stop ⟨[], [], []⟩ txs

/-- `sum(d.values())` (`/repo/auxi/modelling/financial/reporting.py:189-191,297-298`). -/
def dictSum (d : Dict Str) : ℚ := (d.map (·.2)).sum

/-- `rows[ix][col] = v` (`/repo/auxi/modelling/financial/reporting.py:198-224`). -/
def setCell (ix col : Nat) (v : Cell) (rows : Table) : Res Table :=
  if ix < rows.length ∧ col < 5 then .ok (rows.modify ix (fun r => r.set col v)) else .error .indexError

/-- The loops `/repo/auxi/modelling/financial/reporting.py:197-200,205-208,219-222`. -/
def putEntries (c1 c2 : Nat) : Dict Str → Nat → Table → Res (Nat × Table)
  | [], ix, rows => .ok (ix, rows)
  | (k, v) :: d, ix, rows => do
    let rows ← setCell ix c1 (.text k) rows
    let rows ← setCell ix c2 (.money v) rows
    putEntries c1 c2 d (ix + 1) rows

/-- `/repo/auxi/modelling/financial/reporting.py:181-233` `BalanceSheet._generate_table_`, given the sums. -/
def sheetTable (b : Sheet) : Res Table := do
  let n := max b.assets.length (b.liabilities.length + b.equity.length + 4 + 3)
  let rows : Table := List.replicate n [tx "", tx "", tx "", tx "", tx ""]
  let (_, rows) ← putEntries 0 1 b.assets 0 rows
  let rows ← setCell 0 2 (tx "Liabilities") rows
  let rows ← setCell 1 2 (tx "-----------") rows
  let (ix, rows) ← putEntries 2 3 b.liabilities 2 rows
  let rows ← setCell ix 2 (tx "Total liabilities") rows
  let rows ← setCell ix 4 (.money (dictSum b.liabilities)) rows
  let rows ← setCell (ix + 1) 2 (tx "-----------------") rows
  let rows ← setCell (ix + 2) 2 (tx "Owners' Equity") rows
  let rows ← setCell (ix + 3) 2 (tx "--------------") rows
  let (ix, rows) ← putEntries 2 3 b.equity (ix + 4) rows
  let rows ← setCell ix 2 (tx "Total owners' equities") rows
  let rows ← setCell ix 4 (.money (dictSum b.equity)) rows
  pure ([tx "Assets", tx " ", tx "Liabilities and Equity", tx "", tx "  "] :: rows ++
    [[tx "-----", tx "--------", tx "----------------------", tx "", tx "--------"],
     [tx "Total", .money (dictSum b.assets), tx "Total", tx "", .money (dictSum b.liabilities + dictSum b.equity)]])

/-- `/repo/auxi/modelling/financial/reporting.py:181-233` `BalanceSheet._generate_table_`. -/
def balanceSheet (s : Structure) (stop : When) (txs : List RTx) : Res Table := do
  let b ← sheetSums s stop txs
  sheetTable b

/-! ## Income statement -/

/-- `if k in d: d[k] += v else: d[k] = w` (`/repo/auxi/modelling/financial/reporting.py:271-274,276-279,283-286,288-291`). -/
def dictUpd (k : Str) (v w : ℚ) : Dict Str → Dict Str
  | [] => [(k, w)]
  | (k', x) :: d => if k' = k then (k', x + v) :: d else (k', x) :: dictUpd k v w d

/-- The two dicts of `/repo/auxi/modelling/financial/reporting.py:260-261`. -/
structure Income where
  income : Dict Str
  expenses : Dict Str

/-- `/repo/auxi/modelling/financial/reporting.py:270-279`: the first credit to an expense account is stored with the
sign of a debit (line 279). -/
def Income.credit (b : Income) (ty : AccountType) (acc : Str) (amount : ℚ) : Income :=
  match ty with
  | .revenue => { b with income := dictUpd acc amount amount b.income }
  | .expense => { b with expenses := dictUpd acc (-amount) amount b.expenses }
  | _ => b

/-- `/repo/auxi/modelling/financial/reporting.py:282-291`: the first debit to a revenue account is stored with the sign
of a credit (line 286). -/
def Income.debit (b : Income) (ty : AccountType) (acc : Str) (amount : ℚ) : Income :=
  match ty with
  | .revenue => { b with income := dictUpd acc (-amount) amount b.income }
  | .expense => { b with expenses := dictUpd acc amount amount b.expenses }
  | _ => b

/-- One selected transaction, `/repo/auxi/modelling/financial/reporting.py:268-291`. -/
def Income.add (b : Income) (t : RTx) (cty dty : AccountType) : Income :=
  let b := if t.closingCr = false ∧ t.closingDt = false ∧ t.cr ≠ some [] then b.credit cty (t.cr.getD []) t.amount else b
  if t.closingCr = false ∧ t.closingDt = false ∧ t.dt ≠ some [] then b.debit dty (t.dt.getD []) t.amount else b

/-- `/repo/auxi/modelling/financial/reporting.py:262-292` the loop of `IncomeStatement._sum_amounts_per_account_`. -/
def incomeLoop (s : Structure) (comp : Str) (start stop : When) (b : Income) : List RTx → Res Income
  | [] => .ok b
  | t :: ts => match t.source with
    | none => .error .attributeError
    | some src =>
      if comp.isPrefixOf src then
        match within start stop t.date with
        | .error e => .error e
        | .ok false => incomeLoop s comp start stop b ts
        | .ok true => match acctType s t.cr with
          | .error e => .error e
          | .ok cty => match acctType s t.dt with
            | .error e => .error e
            | .ok dty => incomeLoop s comp start stop (b.add t cty dty) ts
      else incomeLoop s comp start stop b ts

/-- `/repo/auxi/modelling/financial/reporting.py:258-292` `IncomeStatement._sum_amounts_per_account_`. -/
def incomeSums (s : Structure) (comp : Str) (start stop : When) (txs : List RTx) : Res Income :=
  incomeLoop s comp start stop ⟨[], []⟩ txs

/-- `entry.startswith('Cost of Sales')` (`/repo/auxi/modelling/financial/reporting.py:311,322`). -/
def isCos (k : Str) : Bool := "Cost of Sales".toList.isPrefixOf k

/-- `/repo/auxi/modelling/financial/reporting.py:294-331` `IncomeStatement._generate_table_`, given the sums. -/
def incomeTable (b : Income) : Table :=
  let cos := b.expenses.filter (fun e => isCos e.1)
  let other := b.expenses.filter (fun e => !isCos e.1)
  let net := dictSum b.income - dictSum b.expenses
  [[tx "", tx "Debit", tx "Credit"], [tx "Revenues", tx "", tx ""], [tx "--------", tx "", tx ""]] ++
  b.income.map (fun e => [.text e.1, tx "", .money e.2]) ++
  [[tx "", tx "", tx ""], [tx "Cost of Sales", tx "", tx ""], [tx "-------------", tx "", tx ""]] ++
  cos.map (fun e => [.text e.1, .money e.2, tx ""]) ++
  [[tx "", tx "", tx "--------"],
   [tx "Gross Revenues (including interest income)", tx "", .money (dictSum b.income - dictSum cos)],
   [tx "", tx "", tx "--------"], [tx "Expenses", tx "", tx ""], [tx "--------", tx "", tx ""]] ++
  other.map (fun e => [.text e.1, .money e.2, tx ""]) ++
  [[tx "", tx "--------", tx ""], [tx "Total Expenses", .money (dictSum b.expenses - dictSum cos), tx ""],
   [tx "", tx "--------", tx "--------"],
   [tx "Net Income", tx "", if net < 0 then .paren |net| else .money |net|]]

/-- `/repo/auxi/modelling/financial/reporting.py:294-331` `IncomeStatement._generate_table_`. -/
def incomeStatement (s : Structure) (comp : Str) (start stop : When) (txs : List RTx) : Res Table :=
  (incomeSums s comp start stop txs).map incomeTable

/-! ## General ledger structure -/

/-- String comparison by code points (`sorted(..., key=lambda a: a.number)`,
`/repo/auxi/modelling/financial/reporting.py:61,69,73`). -/
def strLe : Str → Str → Bool
  | [], _ => true
  | _ :: _, [] => false
  | a :: x, b :: y => if a.toNat = b.toNat then strLe x y else a.toNat < b.toNat

/-- `account.account_type.name` (`/repo/auxi/modelling/financial/reporting.py:58`, `/repo/auxi/modelling/financial/des.py:24-33`). -/
def typeName : AccountType → Str
  | .asset => "asset".toList
  | .equity => "equity".toList
  | .expense => "expense".toList
  | .liability => "liability".toList
  | .revenue => "revenue".toList

/-- Sorted by number, ties in order (`/repo/auxi/modelling/financial/reporting.py:61,69,73`). -/
def sortByNumber {α : Type} (l : List (Str × α)) : List (Str × α) := l.insertionSort (fun a b => strLe a.1 b.1 = true)

mutual
/-- `/repo/auxi/modelling/financial/reporting.py:57-63` `_gl_accounts_to_table_`: the rows it appends.  A missing number
raises `TypeError` (in the concatenation of line 59, or earlier in the comparison of line 61), so it does not matter that
the rows of the children are computed before sorting here. -/
def glRows (pre : Str) : Account → Res Table
  | ⟨_, _, none, _, _, _, _⟩ => .error .typeError
  | ⟨n, d, some k, t, _, _, cs⟩ => match glChildren (k ++ ['/']) cs with
    | .error e => .error e
    | .ok l => .ok ([.text (typeName t), .text (pre ++ k), .text n, optCell d] :: (sortByNumber l).flatMap (·.2))
/-- `/repo/auxi/modelling/financial/reporting.py:61-63` number and rows of each child. -/
def glChildren (pre : Str) : List Account → Res (List (Str × Table))
  | [] => .ok []
  | c :: cs => match c.number with
    | none => .error .typeError
    | some k => match glRows pre c with
      | .error e => .error e
      | .ok r => match glChildren pre cs with
        | .error e => .error e
        | .ok l => .ok ((k, r) :: l)
end

/-- `a.number.startswith('I')` for the top level accounts (`/repo/auxi/modelling/financial/reporting.py:68,72`);
top level accounts always have a number (`/repo/auxi/modelling/financial/des.py:264-277`), otherwise `AttributeError`. -/
def startsWith (ch : Char) (a : Account) : Bool := match a.number with
  | some (c :: _) => c = ch
  | _ => false

/-- `/repo/auxi/modelling/financial/reporting.py:65-75` `GeneralLedgerStructure._generate_table_`. -/
def structureReport (s : Structure) : Res Table :=
  if s.accounts.any (fun a => a.number = none) then .error .attributeError
  else match glChildren [] (s.accounts.filter (startsWith 'I')) with
    | .error e => .error e
    | .ok i => match glChildren [] (s.accounts.filter (startsWith 'B')) with
      | .error e => .error e
      | .ok b => .ok ([tx "Type", tx "Number", tx "Name", tx "Description"] ::
          (sortByNumber i).flatMap (·.2) ++ (sortByNumber b).flatMap (·.2))

/-! ## Rendering -/

/-- `/repo/auxi/core/reporting.py:24-35` `ReportFormat`. -/
inductive Format
  | printout | latex | txt | csv | string | matplotlib | png
  deriving DecidableEq

/-- Ways of turning a table into text: `tabulate(..., tablefmt="simple")`, `tabulate(..., tablefmt="latex")`, `csv.writer`
(`/repo/auxi/core/reporting.py:66,87,102`). -/
inductive Style
  | simple | latex | csv
  deriving DecidableEq

/-- Observable effects of rendering: text printed, a file written, a plot drawn (to a png file or not).
`/repo/auxi/core/reporting.py:64-106`. -/
inductive Effect
  | print (text : Str)
  | write (path text : Str)
  | plot (png : Bool)
  deriving DecidableEq

/-- `/repo/auxi/core/reporting.py:83-106` `_render_latex_`, `_render_txt_`, `_render_csv_`. -/
def renderTo (style : Table → Str) (ext : String) (path : Option Str) (t : Table) : Effect :=
  match path with
  | some p => .write (p ++ ext.toList) (style t)
  | none => .print (style t)

/-- `/repo/auxi/core/reporting.py:53-81` `Report.render`, the table being generated first; `out` is how text is made of a
table (tabulate / csv). Result: the effects and the value returned. -/
def render (out : Style → Table → Str) (table : Res Table) (path : Option Str) (f : Format) : Res (List Effect × Option Str) :=
  match table with
  | .error e => .error e
  | .ok t => .ok (match f with
    | .printout => ([.print (out .simple t)], none)
    | .latex => ([renderTo (out .latex) ".tex" path t], none)
    | .txt => ([renderTo (out .simple) ".txt" path t], none)
    | .csv => ([renderTo (out .csv) ".csv" path t], none)
    | .string => ([], some (out .simple t))
    | .matplotlib => ([.plot false], none)
    | .png => ([.plot path.isSome], none))

end Auxi.Reports
