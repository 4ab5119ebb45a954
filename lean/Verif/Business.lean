import Mathlib.Data.Rat.Defs
import Mathlib.Data.Rat.Lemmas
import Mathlib.Algebra.Order.Field.Rat
import Mathlib.Algebra.Order.Group.Unbundled.Abs
import Verif.Ledger
import Verif.Clock

/-!
# Business models: `/repo/auxi/modelling/business/{structure,basic,models}.py` and the ledger part of
`/repo/auxi/modelling/financial/des.py`

Amounts are exact rationals.  A method that changes `self` and appends to a general ledger is modelled by a
function that returns the new `self` and the list of transactions appended.
-/
namespace Auxi.Business
open Ledger Time Calendar

/-- `/repo/auxi/modelling/financial/des.py:145-175` `Transaction` (accounts are given by path strings). -/
structure Tx where
  name : Str
  description : Option Str
  date : Int
  dt : Str
  cr : Str
  source : Str
  amount : ℚ
  closingDt : Bool := false
  closingCr : Bool := false
  deriving DecidableEq

/-- `datetime.min`, default of `/repo/auxi/modelling/business/structure.py:38`. -/
def dtMin : Int := 0
/-- `datetime.max`, default of `/repo/auxi/modelling/business/structure.py:38`. -/
def dtMax : Int := mkDateTime 9999 12 31 (dayUs - 1)

/-- What distinguishes the two activity classes.
`basic`: `/repo/auxi/modelling/business/basic.py:36-55`; `loan`: `/repo/auxi/modelling/business/basic.py:166-192`
(`_amount`, `_interest_rate`, `_monthly_payment`, `duration`, `_months_executed`, `_amount_left`). -/
inductive Kind
  | basic (amount : ℚ) (dt cr : Str)
  | loan (bank loan interest : Str) (amount rate payment : ℚ) (duration : Int) (monthsExecuted : Int) (left : ℚ)
  deriving DecidableEq

/-- `/repo/auxi/modelling/business/structure.py:25-48` `Activity`. -/
structure Activity where
  name : Str
  description : Option Str
  parentPath : Str
  path : Str
  start : Int
  stop : Int
  interval : Int
  startIx : Int
  endIx : Int
  periodCount : Int
  kind : Kind
  deriving DecidableEq

/-- `/repo/auxi/modelling/business/structure.py:37-48,70-73` `Activity.__init__`. -/
def Activity.new (name : Str) (start stop interval : Int) (description : Option Str) (kind : Kind) : Activity :=
  { name, description, parentPath := [], path := '/' :: name, start, stop, interval, startIx := -1, endIx := -1,
    periodCount := -1, kind }

/-- `/repo/auxi/modelling/business/basic.py:36-55` `BasicActivity.__init__`. -/
def newBasic (name dt cr : Str) (amount : ℚ) (start stop interval : Int) (description : Option Str) : Activity :=
  Activity.new name start stop interval description (.basic amount dt cr)

/-- `/repo/auxi/modelling/business/basic.py:194-198` `_update_monthly_payment_`, with the divisions by zero of
line 197 (`1 / pow(...)`, `val / (...)`, and `pow(0.0, negative)`) raising. -/
def monthlyPayment (amount rate : ℚ) (duration : Int) : Res ℚ :=
  let r := rate / 12
  if 1 + r = 0 then .error .zeroDivisionError
  else
    let den := 1 - 1 / (1 + r) ^ duration
    if den = 0 then .error .zeroDivisionError else .ok (amount * r / den)

/-- `/repo/auxi/modelling/business/basic.py:166-192,213-217` `BasicLoanActivity.__init__`. -/
def newLoan (name bank loan interest : Str) (amount rate : ℚ) (start duration interval : Int)
    (description : Option Str) : Res Activity :=
  match monthlyPayment amount rate duration with
  | .error e => .error e
  | .ok p => .ok (Activity.new name start (addMonths start (duration + 1)) interval description
      (.loan bank loan interest amount rate p duration 0 amount))

/-- `/repo/auxi/modelling/business/structure.py:56-64` `Activity.set_parent_path`. -/
def Activity.setParentPath (v : Str) (a : Activity) : Activity :=
  { a with parentPath := v, path := v ++ '/' :: a.name }

/-- `/repo/auxi/modelling/business/structure.py:70-73` the `name` setter of `Activity`. -/
def Activity.rename (v : Str) (a : Activity) : Activity :=
  { a with name := v, path := a.parentPath ++ '/' :: v }

/-- `/repo/auxi/modelling/business/structure.py:75-79` `Activity._meet_execution_criteria`. -/
def Activity.meetsBase (a : Activity) (ix : Nat) : Bool :=
  if a.interval ≠ 0 ∧ ((ix : Int) + 1) % a.interval ≠ 0 then false
  else (ix : Int) ≥ a.startIx && (ix : Int) + a.interval ≤ a.endIx

/-- The overriding criteria: `/repo/auxi/modelling/business/basic.py:57-59` and `219-221`. -/
def Activity.meets (a : Activity) (ix : Nat) : Bool :=
  a.meetsBase ix && match a.kind with
    | .basic amount _ _ => amount > 0
    | .loan _ _ _ amount _ _ duration _ _ => amount > 0 && duration > 0

/-- The search loops `/repo/auxi/modelling/business/structure.py:93-96` and `101-104`. -/
def firstAfter (clk : Clock) (t : Int) (n : Nat) : Option Nat :=
  (List.range n).find? (fun i => clk.atIx i > t)

/-- `/repo/auxi/modelling/business/structure.py:91-98`: the new `start_period_ix`. -/
def Activity.prepStart (clk : Clock) (n : Nat) (a : Activity) : Int :=
  let s := if a.startIx = -1 ∧ a.start ≠ dtMin then
      (match firstAfter clk a.start n with | some i => (i : Int) | none => a.startIx)
    else a.startIx
  if s = -1 then 0 else s

/-- `/repo/auxi/modelling/business/structure.py:99-104`: the new `period_count`. -/
def Activity.prepCount (clk : Clock) (n : Nat) (a : Activity) : Int :=
  if a.periodCount = -1 ∧ a.stop ≠ dtMax then
    (match firstAfter clk a.stop n with | some i => (i : Int) - a.prepStart clk n | none => a.periodCount)
  else a.periodCount

/-- `/repo/auxi/modelling/business/structure.py:105-108`: the new `end_period_ix`. -/
def Activity.prepEnd (clk : Clock) (n : Nat) (a : Activity) : Int :=
  if a.prepCount clk n ≠ -1 then a.prepStart clk n + a.prepCount clk n else a.prepStart clk n + n

/-- `/repo/auxi/modelling/business/basic.py:235-236`: what the loan's `prepare_to_run` resets. -/
def Kind.reset : Kind → Kind
  | .basic a d c => .basic a d c
  | .loan b l i a r p d _ _ => .loan b l i a r p d 0 a

/-- `/repo/auxi/modelling/business/structure.py:81-108` and `/repo/auxi/modelling/business/basic.py:223-236`
`prepare_to_run`. -/
def Activity.prepare (clk : Clock) (n : Nat) (a : Activity) : Activity :=
  { a with startIx := a.prepStart clk n, periodCount := a.prepCount clk n, endIx := a.prepEnd clk n,
           kind := a.kind.reset }

/-- `/repo/auxi/modelling/business/basic.py:75,251-254`: transaction name. -/
def Activity.txName (a : Activity) : Str := a.description.getD a.name

/-- `/repo/auxi/modelling/business/basic.py:61-81` and `238-289` `run`: new activity state and transactions created,
in order. -/
def Activity.run (clk : Clock) (a : Activity) : Activity × List Tx :=
  if a.meets clk.ix = false then (a, [])
  else match a.kind with
  | .basic amount dt cr =>
    (a, [{ name := a.txName, description := some [], date := clk.now, dt, cr, source := a.path, amount }])
  | .loan bank loan interest amount rate payment duration months left =>
    if months = 0 then
      ({ a with kind := .loan bank loan interest amount rate payment duration (months + a.interval) left },
       [{ name := a.txName, description := some "Make a loan".toList, date := clk.now, dt := bank, cr := loan,
          source := a.path, amount }])
    else
      let i := left * rate / 12
      ({ a with kind := .loan bank loan interest amount rate payment duration (months + a.interval)
                          (left + (i - payment)) },
       [{ name := a.txName, description := some "Consider interest".toList, date := clk.now, dt := interest, cr := loan,
          source := a.path, amount := i },
        { name := a.txName, description := some "Pay principle".toList, date := clk.now, dt := loan, cr := bank,
          source := a.path, amount := payment }])

/-- `/repo/auxi/modelling/business/basic.py:83-90` and `291-301` `get_referenced_accounts`. -/
def Activity.referencedAccounts (a : Activity) : List Str :=
  match a.kind with
  | .basic _ dt cr => [dt, cr]
  | .loan bank loan interest _ _ _ _ _ _ => [bank, loan, interest]

/-- `/repo/auxi/modelling/business/structure.py:120-135` `Component` (its `gl` is the ledger of the owning entity). -/
structure Component where
  name : Str
  description : Option Str
  parentPath : Str
  path : Str
  components : List Component
  activities : List Activity

/-- `/repo/auxi/modelling/business/structure.py:129-135,164-168` `Component.__init__` (the `name` setter overwrites
`path` with `'/' + name`). -/
def Component.new (name : Str) (description : Option Str) : Component :=
  { name, description, parentPath := [], path := '/' :: name, components := [], activities := [] }

mutual
/-- `/repo/auxi/modelling/business/structure.py:143-152` `Component.set_parent_path`. -/
def Component.setParentPath (v : Str) : Component → Component
  | ⟨n, d, _, _, cs, as⟩ =>
    ⟨n, d, v, v ++ '/' :: n, updateComponents (v ++ '/' :: n) cs, as.map (Activity.setParentPath (v ++ '/' :: n))⟩
/-- `/repo/auxi/modelling/business/structure.py:155-156` loop over the sub components. -/
def updateComponents (p : Str) : List Component → List Component
  | [] => []
  | c :: cs => c.setParentPath p :: updateComponents p cs
end

/-- `/repo/auxi/modelling/business/structure.py:164-168` the `name` setter of `Component`. -/
def Component.rename (v : Str) (c : Component) : Component :=
  let p := c.parentPath ++ '/' :: v
  { c with name := v, path := p, components := updateComponents p c.components,
           activities := c.activities.map (Activity.setParentPath p) }

/-- `/repo/auxi/modelling/business/structure.py:170-183` `Component.create_component`. -/
def Component.createComponent (name : Str) (description : Option Str) (c : Component) : Component :=
  { c with components := c.components ++ [(Component.new name description).setParentPath c.path] }

/-- Index of the last component with a name: the loops `/repo/auxi/modelling/business/structure.py:192-195,342-345`. -/
def lastComp (name : Str) : List Component → Option Nat
  | [] => none
  | c :: cs => match lastComp name cs with
    | some i => some (i + 1)
    | none => if c.name = name then some 0 else none

/-- `/repo/auxi/modelling/business/structure.py:192-197` and `342-347` (removal by identity). -/
def removeComp (name : Str) (l : List Component) : List Component :=
  match lastComp name l with
  | some i => l.eraseIdx i
  | none => l

/-- `/repo/auxi/modelling/business/structure.py:185-197` `Component.remove_component`. -/
def Component.removeComponent (name : Str) (c : Component) : Component :=
  { c with components := removeComp name c.components }

/-- `/repo/auxi/modelling/business/structure.py:210-220` `Component.add_activity`
(the activity is owned by the component from here on). -/
def Component.addActivity (s : Structure) (a : Activity) (c : Component) : Res Component :=
  match s.validateAccountNames a.referencedAccounts with
  | .error e => .error e
  | .ok () => .ok { c with activities := c.activities ++ [a.setParentPath c.path] }

mutual
/-- `/repo/auxi/modelling/business/structure.py:233-246` `Component.prepare_to_run`. -/
def Component.prepare (clk : Clock) (n : Nat) : Component → Component
  | ⟨nm, d, pp, p, cs, as⟩ => ⟨nm, d, pp, p, prepareComponents clk n cs, as.map (Activity.prepare clk n)⟩
/-- `/repo/auxi/modelling/business/structure.py:243-244,370-371` loop over components. -/
def prepareComponents (clk : Clock) (n : Nat) : List Component → List Component
  | [] => []
  | c :: cs => c.prepare clk n :: prepareComponents clk n cs
end

/-- `/repo/auxi/modelling/business/structure.py:260-261` loop over the activities. -/
def runActivities (clk : Clock) : List Activity → List Activity × List Tx
  | [] => ([], [])
  | a :: as =>
    let r := a.run clk
    let rs := runActivities clk as
    (r.1 :: rs.1, r.2 ++ rs.2)

mutual
/-- `/repo/auxi/modelling/business/structure.py:248-261` `Component.run`: sub components first. -/
def Component.run (clk : Clock) : Component → Component × List Tx
  | ⟨nm, d, pp, p, cs, as⟩ =>
    let rc := runComponents clk cs
    let ra := runActivities clk as
    (⟨nm, d, pp, p, rc.1, ra.1⟩, rc.2 ++ ra.2)
/-- `/repo/auxi/modelling/business/structure.py:258-259,386-387` loop over components. -/
def runComponents (clk : Clock) : List Component → List Component × List Tx
  | [] => ([], [])
  | c :: cs =>
    let r := c.run clk
    let rs := runComponents clk cs
    (r.1 :: rs.1, r.2 ++ rs.2)
end

/-! ## Accounts as seen by the year end procedure -/

/-- An account object: its identity (position in the structure) and the attributes used by
`/repo/auxi/modelling/business/structure.py:413-566`. -/
structure Ref where
  pos : List Nat
  path : Str
  accountType : AccountType
  deriving DecidableEq

/-- The pieces `split('/', 1)` produces when it is applied again to the remainder, as the recursion of
`/repo/auxi/modelling/financial/des.py:289-296,133-139` does: the split at every `'/'`. -/
def splitSlash : Str → List Str
  | [] => [[]]
  | c :: cs => if c = '/' then [] :: splitSlash cs else
      match splitSlash cs with
      | [] => [[c]]
      | s :: r => (c :: s) :: r

/-- `get_child_account` (`/repo/auxi/modelling/financial/des.py:123-142`) returning the identity of the account found;
the name is given split at its slashes. (`Verif.Proofs.YearEnd` proves that it finds the same account as
`Account.getChildAccount`.) -/
def childRef (pre : List Nat) (a : Account) : List Str → Res Ref
  | [] => .error .indexError
  | [x] => match a.accounts.findIdx? (fun c => c.name = x) with
    | none => .error .indexError
    | some i => match a.accounts[i]? with
      | none => .error .indexError
      | some c => .ok ⟨pre ++ [i], c.path, c.accountType⟩
  | x :: y :: r => match a.accounts.findIdx? (fun c => c.name = x) with
    | none => .error .indexError
    | some i => match a.accounts[i]? with
      | none => .error .indexError
      | some c => childRef (pre ++ [i]) c (y :: r)

/-- `get_account` (`/repo/auxi/modelling/financial/des.py:279-298`) returning the identity of the account found. -/
def getRef (s : Structure) (name : Str) : Res (Option Ref) :=
  match splitSlash name with
  | [] => .ok none
  | [x] => match s.accounts.findIdx? (fun c => c.name = x) with
    | none => .ok none
    | some i => match s.accounts[i]? with
      | none => .ok none
      | some c => .ok (some ⟨[i], c.path, c.accountType⟩)
  | x :: y :: r => match s.accounts.findIdx? (fun c => c.name = x) with
    | none => .ok none
    | some i => match s.accounts[i]? with
      | none => .ok none
      | some c => (childRef [i] c (y :: r)).map some

/-- `gls.get_account_descendants(gls._acci_sales_)` contains the account
(`/repo/auxi/modelling/business/structure.py:406,416`; membership is identity, `_acci_sales_` is the second top level
account, `/repo/auxi/modelling/financial/des.py:215`, and top level accounts are never removed). -/
def Ref.inSales (r : Ref) : Bool := match r.pos with
  | 1 :: _ :: _ => true
  | _ => false

/-- `gls.get_account_descendants(gls._acci_cos_)` contains the account
(`/repo/auxi/modelling/business/structure.py:407,427`, `/repo/auxi/modelling/financial/des.py:216`). -/
def Ref.inCos (r : Ref) : Bool := match r.pos with
  | 2 :: _ :: _ => true
  | _ => false

/-- The general ledger structure of an entity with the paths of the account objects it keeps as attributes:
`_acci_gross_prof_`, `_acci_inc_sum_`, `_accb_ret_earnings_acc_` (`/repo/auxi/modelling/financial/des.py:243-248`). -/
structure Chart where
  str : Structure
  grossProf : Str
  incSum : Str
  retEarn : Str

/-- The chart of a structure just constructed (`/repo/auxi/modelling/financial/des.py:206-252`). -/
def Chart.new (name : Str) : Chart :=
  ⟨Structure.new name, "Unallocated Income Statement/Gross Profit".toList,
   "Unallocated Income Statement/Income Summary".toList, "Retained Income/Retained Earnings".toList⟩

/-- Insertion ordered dict of amounts (`OrderedDict`, `/repo/auxi/modelling/business/structure.py:404-405`). -/
abbrev Dict (κ : Type) := List (κ × ℚ)

/-- `if k in d: d[k] += v else: d[k] = v` (`/repo/auxi/modelling/business/structure.py:417-420` and alike). -/
def dictAdd {κ : Type} [DecidableEq κ] (k : κ) (v : ℚ) : Dict κ → Dict κ
  | [] => [(k, v)]
  | (k', w) :: d => if k' = k then (k', w + v) :: d else (k', w) :: dictAdd k v d

/-- `k in d`. (`/repo/auxi/modelling/business/structure.py:417` and alike) -/
def dictMem {κ : Type} [DecidableEq κ] (k : κ) (d : Dict κ) : Bool := d.any (fun e => e.1 = k)

/-- The two dicts built by `/repo/auxi/modelling/business/structure.py:404-405`. -/
structure WriteOff where
  gross : Dict Ref
  inc : Dict Ref

/-- One iteration of the loop `/repo/auxi/modelling/business/structure.py:412-458`.  `cr_acc.account_type` of a missing
account raises `AttributeError`; line 445 raises `KeyError` when the account is not in the dict yet (the test on line
444 repeats the one on line 443 instead of testing membership). -/
def classify (c : Chart) (w : WriteOff) (tx : Tx) : Res WriteOff := do
  let cr ← getRef c.str tx.cr
  let dt ← getRef c.str tx.dt
  match cr, dt with
  | some cr', _ =>
    if cr'.inSales then pure { w with gross := dictAdd cr' tx.amount w.gross }
    else match dt with
    | some dt' =>
      if dt'.inSales then pure { w with gross := dictAdd dt' (-tx.amount) w.gross }
      else if cr'.inCos then pure { w with gross := dictAdd cr' tx.amount w.gross }
      else if dt'.inCos then pure { w with gross := dictAdd dt' (-tx.amount) w.gross }
      else if cr'.accountType = .revenue then pure { w with inc := dictAdd cr' tx.amount w.inc }
      else if dt'.accountType = .revenue then
        if dictMem dt' w.inc then pure { w with inc := dictAdd dt' (-tx.amount) w.inc } else throw .keyError
      else if cr'.accountType = .expense then pure { w with inc := dictAdd cr' (-tx.amount) w.inc }
      else if dt'.accountType = .expense then pure { w with inc := dictAdd dt' tx.amount w.inc }
      else pure w
    | none =>
      if cr'.inCos then pure { w with gross := dictAdd cr' tx.amount w.gross }
      else if cr'.accountType = .revenue then pure { w with inc := dictAdd cr' tx.amount w.inc }
      else throw .attributeError
  | none, some dt' =>
    if dt'.inSales then pure { w with gross := dictAdd dt' (-tx.amount) w.gross }
    else if dt'.inCos then pure { w with gross := dictAdd dt' (-tx.amount) w.gross }
    else throw .attributeError
  | none, none => throw .attributeError

/-- The loop `/repo/auxi/modelling/business/structure.py:412-458`. -/
def classifyAll (c : Chart) (w : WriteOff) : List Tx → Res WriteOff
  | [] => .ok w
  | tx :: txs => match classify c w tx with
    | .error e => .error e
    | .ok w' => classifyAll c w' txs

/-- The text built at `/repo/auxi/modelling/business/structure.py:485-486,515,543`. -/
def settleName (path : Str) : Str := "Settle the '".toList ++ path ++ "' Account".toList
/-- The text built at `/repo/auxi/modelling/business/structure.py:578-579`. -/
def retainedName (path : Str) : Str := "Settle the '".toList ++ path ++ "' Account, adjust Retained Earnings accordingly.".toList

/-- A closing transaction (`/repo/auxi/modelling/business/structure.py:485-496,514-524,541-551,577-588`): name and description are the
same text. -/
def closing (src : Str) (date : Int) (name dt cr : Str) (amount : ℚ) : Tx :=
  { name, description := some name, date, dt, cr, source := src, amount, closingCr := true }

/-- `/repo/auxi/modelling/business/structure.py:507-531` `_perform_year_end_gross_profit`. -/
def grossClosings (c : Chart) (src : Str) (date : Int) : Dict Ref → List Tx
  | [] => []
  | (acc, amount) :: d =>
    (if amount > 0 then [closing src date (settleName acc.path) c.grossProf acc.path |amount|]
     else if amount < 0 then [closing src date (settleName acc.path) acc.path c.grossProf |amount|] else [])
    ++ grossClosings c src date d

/-- `/repo/auxi/modelling/business/structure.py:511,526` the sum returned by `_perform_year_end_gross_profit`. -/
def grossTotal (d : Dict Ref) : ℚ := d.foldl (fun s e => s + e.2) 0

/-- `/repo/auxi/modelling/business/structure.py:540-566` the transactions of `_perform_year_end_income_summary`. -/
def incClosings (c : Chart) (src : Str) (date : Int) : Dict Ref → List Tx
  | [] => []
  | (acc, amount) :: d =>
    (if amount > 0 then
       (if acc.accountType = .expense then [closing src date (settleName acc.path) c.incSum acc.path |amount|]
        else [closing src date (settleName acc.path) acc.path c.incSum |amount|])
     else if amount < 0 then
       (if acc.accountType = .expense then [closing src date (settleName acc.path) acc.path c.incSum |amount|]
        else [closing src date (settleName acc.path) c.incSum acc.path |amount|])
     else [])
    ++ incClosings c src date d

/-- `/repo/auxi/modelling/business/structure.py:538,555-565` the amount returned by `_perform_year_end_income_summary`. -/
def incTotal (gross : ℚ) (d : Dict Ref) : ℚ :=
  d.foldl (fun s e => if e.2 > 0 ∨ e.2 < 0 then
    (if e.1.accountType = .expense then s - e.2 else s + e.2) else s) gross

/-- `/repo/auxi/modelling/business/structure.py:498-503` settling the gross profit account. -/
def grossSettle (c : Chart) (src : Str) (date : Int) (gross : ℚ) : List Tx :=
  if gross > 0 then [closing src date (settleName c.grossProf) c.grossProf c.incSum |gross|]
  else if gross < 0 then [closing src date (settleName c.grossProf) c.incSum c.grossProf |gross|] else []

/-- `/repo/auxi/modelling/business/structure.py:574-596` `_perform_year_end_retained_earnings`
(the amount is not made positive on line 587). -/
def retainedClosings (c : Chart) (src : Str) (date : Int) (inc : ℚ) : List Tx :=
  if inc > 0 then [closing src date (retainedName c.incSum) c.incSum c.retEarn inc]
  else if inc < 0 then [closing src date (retainedName c.incSum) c.retEarn c.incSum inc] else []

/-- All transactions created by one year end (`/repo/auxi/modelling/business/structure.py:460-469`, with the order of
creation of lines 477-503; `_perform_year_end_income_tax`, lines 569-572, is the identity). -/
def closingTxs (c : Chart) (src : Str) (date : Int) (w : WriteOff) : List Tx :=
  let gross := grossTotal w.gross
  let inc := incTotal gross w.inc
  grossClosings c src date w.gross ++ incClosings c src date w.inc ++ grossSettle c src date gross
    ++ retainedClosings c src date inc

/-- `/repo/auxi/modelling/business/structure.py:264-290` `Entity` (`gl` is represented by its structure and
transactions; `negative_income_tax_total` is never read and omitted). -/
structure Entity where
  name : Str
  parentPath : Str
  path : Str
  chart : Chart
  transactions : List Tx
  components : List Component
  prevYearEnd : Int
  currYearEnd : Int
  execYearEnd : Int
  periodCount : Int

/-- `/repo/auxi/modelling/business/structure.py:277-290,314-318` `Entity.__init__`. -/
def Entity.new (name : Str) (chart : Chart) : Entity :=
  { name, parentPath := [], path := '/' :: name, chart, transactions := [], components := [],
    prevYearEnd := dtMin, currYearEnd := dtMin, execYearEnd := dtMin, periodCount := -1 }

/-- `/repo/auxi/modelling/business/structure.py:295-304` `Entity.set_parent_path`. -/
def Entity.setParentPath (v : Str) (e : Entity) : Entity :=
  { e with parentPath := v, path := v ++ '/' :: e.name, components := updateComponents (v ++ '/' :: e.name) e.components }

/-- `/repo/auxi/modelling/business/structure.py:314-318` the `name` setter of `Entity`. -/
def Entity.rename (v : Str) (e : Entity) : Entity :=
  let p := e.parentPath ++ '/' :: v
  { e with name := v, path := p, components := updateComponents p e.components }

/-- `/repo/auxi/modelling/business/structure.py:320-333` `Entity.create_component`. -/
def Entity.createComponent (name : Str) (description : Option Str) (e : Entity) : Entity :=
  { e with components := e.components ++ [(Component.new name description).setParentPath e.path] }

/-- `/repo/auxi/modelling/business/structure.py:335-347` `Entity.remove_component`. -/
def Entity.removeComponent (name : Str) (e : Entity) : Entity :=
  { e with components := removeComp name e.components }

/-- `/repo/auxi/modelling/business/structure.py:349-373` `Entity.prepare_to_run`. -/
def Entity.prepare (clk : Clock) (n : Nat) (e : Entity) : Entity :=
  { e with periodCount := n, execYearEnd := clk.atIx n, prevYearEnd := clk.start, currYearEnd := addYears clk.start 1,
           transactions := [], components := prepareComponents clk n e.components }

/-- The transactions of the closed year (`/repo/auxi/modelling/business/structure.py:395-397,408-411`; one second is
10⁶ microseconds). -/
def Entity.yearTxs (e : Entity) : List Tx :=
  e.transactions.filter (fun tx => e.prevYearEnd ≤ tx.date ∧ tx.date ≤ e.currYearEnd - 1000000)

/-- `/repo/auxi/modelling/business/structure.py:399-402`: moving on to the next year. -/
def Entity.advance (e : Entity) : Entity :=
  { e with prevYearEnd := e.currYearEnd,
           currYearEnd := if addYears e.currYearEnd 1 > e.execYearEnd then e.execYearEnd else addYears e.currYearEnd 1 }

/-- `/repo/auxi/modelling/business/structure.py:391-469` `_perform_year_end_procedure`. -/
def Entity.yearEnd (clk : Clock) (e : Entity) : Res Entity :=
  if clk.now ≥ e.currYearEnd ∨ (clk.ix : Int) = e.periodCount then
    match classifyAll e.chart ⟨[], []⟩ e.yearTxs with
    | .error err => .error err
    | .ok w => .ok { e.advance with
        transactions := e.transactions ++ closingTxs e.chart e.path (e.currYearEnd - 1000000) w }
  else .ok e

/-- `/repo/auxi/modelling/business/structure.py:375-389` `Entity.run`. -/
def Entity.run (clk : Clock) (e : Entity) : Res Entity :=
  if (clk.ix : Int) ≥ e.periodCount then .ok e
  else
    let r := runComponents clk e.components
    Entity.yearEnd clk { e with components := r.1, transactions := e.transactions ++ r.2 }

/-- `/repo/auxi/modelling/business/models.py:23-50` `TimeBasedModel`. -/
structure Model where
  name : Str
  clock : Clock
  periodCount : Nat
  entities : List Entity

/-- `/repo/auxi/modelling/business/models.py:60-63` the `name` setter of `TimeBasedModel`. -/
def Model.rename (v : Str) (m : Model) : Model :=
  { m with name := v, entities := m.entities.map (Entity.setParentPath v) }

/-- `/repo/auxi/modelling/business/models.py:65-78` `create_entity` (the entity's parent path is not set). -/
def Model.createEntity (name : Str) (chart : Chart) (m : Model) : Model :=
  { m with entities := m.entities ++ [Entity.new name chart] }

/-- `/repo/auxi/modelling/business/models.py:94-101` `prepare_to_run`. -/
def Model.prepare (m : Model) : Model :=
  { m with clock := m.clock.reset, entities := m.entities.map (Entity.prepare m.clock.reset m.periodCount) }

/-- `/repo/auxi/modelling/business/models.py:110-111` the inner loop. -/
def runEntities (clk : Clock) : List Entity → Res (List Entity)
  | [] => .ok []
  | e :: es => match e.run clk with
    | .error err => .error err
    | .ok e' => match runEntities clk es with
      | .error err => .error err
      | .ok es' => .ok (e' :: es')

/-- `/repo/auxi/modelling/business/models.py:109-112` the outer loop (`k` iterations). -/
def loop : Nat → Clock → List Entity → Res (Clock × List Entity)
  | 0, clk, es => .ok (clk, es)
  | k + 1, clk, es => match runEntities clk es with
    | .error err => .error err
    | .ok es' => loop k clk.tick es'

/-- `/repo/auxi/modelling/business/models.py:103-112` `TimeBasedModel.run`. -/
def Model.run (m : Model) : Res Model :=
  let p := m.prepare
  match loop p.periodCount p.clock p.entities with
  | .error err => .error err
  | .ok (clk, es) => .ok { p with clock := clk, entities := es }

end Auxi.Business
