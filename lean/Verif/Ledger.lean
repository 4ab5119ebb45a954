import Verif.Basic

/-!
# General ledger accounts: `/repo/auxi/modelling/financial/des.py`

Account objects are owned by the `accounts` list of one parent, so the object graph is a forest and is
modelled by value.  A Python reference to an account is modelled by its *position*, the list of child
indices leading to it.
-/

namespace Auxi.Ledger

/-- `/repo/auxi/modelling/financial/des.py:24-33` `AccountType`. -/
inductive AccountType
  | asset | equity | expense | liability | revenue
  deriving DecidableEq, Repr

/-- `/repo/auxi/modelling/financial/des.py:38-56` `GeneralLedgerAccount`: the attributes set by `__init__`
(`_name`, `description`, `number`, `account_type`, `_parent_path`, `path`, `accounts`). -/
structure Account where
  name : Str
  description : Option Str
  number : Option Str
  accountType : AccountType
  parentPath : Str
  path : Str
  accounts : List Account

/-- `/repo/auxi/modelling/financial/des.py:48-56` `GeneralLedgerAccount.__init__`
(`super().__init__` runs the `name` setter of lines 83-90 with an empty parent path and no children). -/
def Account.new (name : Str) (description : Option Str) (number : Option Str) (t : AccountType) : Account :=
  { name, description, number, accountType := t, parentPath := [], path := name, accounts := [] }

mutual
/-- `/repo/auxi/modelling/financial/des.py:64-73` `set_parent_path`. -/
def Account.setParentPath (v : Str) : Account → Account
  | ⟨n, d, num, t, _, _, cs⟩ => ⟨n, d, num, t, v, v ++ '/' :: n, updateChildrens (v ++ '/' :: n) cs⟩
/-- `/repo/auxi/modelling/financial/des.py:75-77` `_update_childrens_parent_path`
(`p` is the owner's `self.path`). -/
def updateChildrens (p : Str) : List Account → List Account
  | [] => []
  | c :: cs => c.setParentPath p :: updateChildrens p cs
end

/-- `/repo/auxi/modelling/financial/des.py:83-90` the `name` setter. -/
def Account.rename (v : Str) (a : Account) : Account :=
  let p := if a.parentPath ≠ [] then a.parentPath ++ '/' :: v else v
  { a with name := v, path := p, accounts := updateChildrens p a.accounts }

/-- `/repo/auxi/modelling/financial/des.py:92-107` `create_account` (the effect on `self`). -/
def Account.createAccount (name : Str) (number description : Option Str) (a : Account) : Account :=
  { a with accounts := a.accounts ++
      [(Account.new name description number a.accountType).setParentPath a.path] }

/-- Position of the last account called `name`: the loop of
`/repo/auxi/modelling/financial/des.py:116-119`, which keeps the last match. -/
def lastIdx (name : Str) : List Account → Option Nat
  | [] => none
  | c :: cs =>
    match lastIdx name cs with
    | some i => some (i + 1)
    | none => if c.name = name then some 0 else none

/-- `/repo/auxi/modelling/financial/des.py:116-121` body of `remove_account`; `list.remove` compares by
identity here (`core/objects.py` defines no `__eq__`), so it removes exactly the object found. -/
def removeNamed (name : Str) (l : List Account) : List Account :=
  match lastIdx name l with
  | some i => l.eraseIdx i
  | none => l

/-- `/repo/auxi/modelling/financial/des.py:109-121` `remove_account`. -/
def Account.removeAccount (name : Str) (a : Account) : Account :=
  { a with accounts := removeNamed name a.accounts }

/-- `/repo/auxi/modelling/financial/des.py:58-59` `GeneralLedgerAccount.__getitem__`
(`[...][0]`: first match, `IndexError` when there is none). -/
def Account.getItem (a : Account) (key : Str) : Res Account :=
  match (a.accounts.filter (fun c => c.name = key)) with
  | [] => .error .indexError
  | c :: _ => .ok c

/-- `account_name.split('/', 1)` for a name that contains `'/'`, `none` if it contains none:
`/repo/auxi/modelling/financial/des.py:133-134` and `289-290`. -/
def split1 : Str → Option (Str × Str)
  | [] => none
  | c :: cs => if c = '/' then some ([], cs) else
      match split1 cs with
      | some (x, y) => some (c :: x, y)
      | none => none

/-- The remainder after a split is shorter (termination of the recursion of
`/repo/auxi/modelling/financial/des.py:139`). -/
theorem split1_length {s x y : Str} (h : split1 s = some (x, y)) : y.length < s.length := by
  induction s generalizing x y with
  | nil => simp [split1] at h
  | cons c cs ih =>
    unfold split1 at h
    split at h
    · simp only [Option.some.injEq, Prod.mk.injEq] at h; simp [← h.2]
    · split at h
      · rename_i a b heq
        simp only [Option.some.injEq, Prod.mk.injEq] at h
        have := ih heq; simp [← h.2]; omega
      · simp at h

/-- `/repo/auxi/modelling/financial/des.py:123-142` `get_child_account`.
(The `curr_acc is None` test of line 137 can never succeed: `__getitem__` raises instead.) -/
def Account.getChildAccount (a : Account) (name : Str) : Res Account :=
  match _h : split1 name with
  | some (x, y) =>
    match a.getItem x with
    | .error e => .error e
    | .ok c => c.getChildAccount y
  | none => a.getItem name
termination_by name.length
decreasing_by exact split1_length _h

/-- `/repo/auxi/modelling/financial/des.py:196-252` `GeneralLedgerStructure`
(the private `_acc*_` attributes are aliases of accounts in `accounts`). -/
structure Structure where
  name : Str
  accounts : List Account
  taxPaymentAccount : Str

/-- `/repo/auxi/modelling/financial/des.py:264-277` `_create_account_`: the account it appends. -/
def ca (name number : String) (t : AccountType) : Account :=
  Account.new name.toList none (some number.toList) t

/-- `/repo/auxi/modelling/financial/des.py:206-252` the accounts made by `GeneralLedgerStructure.__init__`
(the children created on lines 235 and 243-250 are created here together with their parent). -/
def defaultAccounts : List Account :=
  [ ((ca "Unallocated Income Statement" "I05" .revenue).createAccount "Gross Profit".toList
      (some "0000".toList) none).createAccount "Income Summary".toList (some "0010".toList) none,
    ca "Sales" "I10" .revenue,
    ca "Cost of Sales" "I15" .expense,
    ca "Other Income" "I20" .revenue,
    ca "Expense" "I25" .expense,
    (ca "Tax" "I30" .expense).createAccount "Income Tax Expense".toList (some "0000".toList) none,
    ca "Dividends" "I35" .expense,
    ca "Share Capital" "B10" .asset,
    (ca "Retained Income" "B15" .equity).createAccount "Retained Earnings".toList (some "0000".toList) none,
    ca "Shareholders Loan" "B20" .liability,
    ca "Long Term Borrowing" "B25" .liability,
    ca "Other Long Term Liabilities" "B30" .liability,
    ca "Fixed Assets" "B35" .asset,
    ca "Investments" "B40" .asset,
    ca "Other Fixed Assets" "B45" .asset,
    ca "Inventory" "B50" .asset,
    ca "Accounts Receivable" "B55" .asset,
    (ca "Bank" "B60" .asset).createAccount "Default".toList (some "0000".toList) none,
    ca "Other Current Assets" "B65" .asset,
    ca "Account Payable" "B70" .liability,
    ca "Taxation" "B75" .liability,
    ca "Other Current Liabilities" "B80" .liability ]

/-- `/repo/auxi/modelling/financial/des.py:206-252` `GeneralLedgerStructure.__init__`. -/
def Structure.new (name : Str) : Structure :=
  { name, accounts := defaultAccounts, taxPaymentAccount := "Bank/Default".toList }

/-- `/repo/auxi/modelling/financial/des.py:254-259` `GeneralLedgerStructure.__getitem__`. -/
def Structure.getItem (s : Structure) (key : Str) : Option Account :=
  match s.accounts.filter (fun c => c.name = key) with
  | [] => none
  | c :: _ => some c

/-- `/repo/auxi/modelling/financial/des.py:279-298` `get_account`; `.ok none` is Python's `None`. -/
def Structure.getAccount (s : Structure) (name : Str) : Res (Option Account) :=
  match split1 name with
  | some (x, y) =>
    match s.getItem x with
    | none => .ok none
    | some c => (c.getChildAccount y).map some
  | none => .ok (s.getItem name)

mutual
/-- `/repo/auxi/modelling/financial/des.py:315-325` `_get_account_and_descendants_`
(what it appends to `result`). -/
def Account.andDescendants : Account → List Account
  | ⟨n, d, num, t, pp, p, cs⟩ => ⟨n, d, num, t, pp, p, cs⟩ :: descList cs
/-- `/repo/auxi/modelling/financial/des.py:310-313` the loop over the children. -/
def descList : List Account → List Account
  | [] => []
  | c :: cs => c.andDescendants ++ descList cs
end

/-- `/repo/auxi/modelling/financial/des.py:300-313` `get_account_descendants`. -/
def Account.descendants (a : Account) : List Account := descList a.accounts

/-- `/repo/auxi/modelling/financial/des.py:327-339` `validate_account_names`. -/
def Structure.validateAccountNames (s : Structure) : List Str → Res Unit
  | [] => .ok ()
  | n :: ns =>
    match s.getAccount n with
    | .error e => .error e
    | .ok none => .error .valueError
    | .ok (some _) => s.validateAccountNames ns

/-! ## References and histories -/

/-- Following a reference inside an account (position = child indices). Models Python references to
`GeneralLedgerAccount` objects, `/repo/auxi/modelling/financial/des.py:55,106-107`. -/
def Account.at? : List Nat → Account → Option Account
  | [], a => some a
  | i :: p, a => match a.accounts[i]? with
    | none => none
    | some c => c.at? p

/-- Following a reference from the structure's top level list. The empty position denotes no account.
`/repo/auxi/modelling/financial/des.py:208`. -/
def forestAt? (l : List Account) : List Nat → Option Account
  | [] => none
  | i :: p => match l[i]? with
    | none => none
    | some c => c.at? p

/-- Calling a mutating method of the account at a position; a dangling position (object no longer in the tree)
leaves the tree alone. `/repo/auxi/modelling/financial/des.py:83,92,109`. -/
def Account.modAt (f : Account → Account) : List Nat → Account → Account
  | [], a => f a
  | i :: p, a => { a with accounts := a.accounts.modify i (Account.modAt f p) }

/-- The same from the top level list. `/repo/auxi/modelling/financial/des.py:208`. -/
def forestMod (f : Account → Account) (l : List Account) : List Nat → List Account
  | [] => l
  | i :: p => l.modify i (Account.modAt f p)

/-- The public mutating operations on accounts of a structure:
`/repo/auxi/modelling/financial/des.py:83` (name setter), `92` (create_account), `109` (remove_account). -/
inductive Op
  | create (pos : List Nat) (name : Str) (number description : Option Str)
  | remove (pos : List Nat) (name : Str)
  | rename (pos : List Nat) (name : Str)

/-- Effect of an operation, see `Op`. `/repo/auxi/modelling/financial/des.py:83-121`. -/
def Op.apply (l : List Account) : Op → List Account
  | .create pos n num d => forestMod (Account.createAccount n num d) l pos
  | .remove pos n => forestMod (Account.removeAccount n) l pos
  | .rename pos n => forestMod (Account.rename n) l pos

/-- A history: any sequence of operations on a freshly constructed structure
(`/repo/auxi/modelling/financial/des.py:206-252`, then `83-121`). -/
def runOps (ops : List Op) : List Account := ops.foldl Op.apply defaultAccounts

end Auxi.Ledger
