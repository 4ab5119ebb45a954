import Verif.Spec.YearEnd
import Verif.Spec.Independence

/-! # A plan in parts -/
namespace Auxi.Business.Spec
open Business Time

/-- What the transactions on dates of a kind move from one account to another: the sum of the amounts of those that debit `dt` and credit `cr`. -/
def flow (dt cr : Str) (D : Int → Bool) (txs : List Tx) : ℚ := ((txs.filter (fun t => t.dt = dt ∧ t.cr = cr ∧ D t.date = true)).map Tx.amount).sum

/-- The transactions of the year end procedure. -/
def closings (txs : List Tx) : List Tx := txs.filter (·.closingCr)

/-- The activities have the same start, end and interval, and the same record of earlier runs. -/
def SameTimes (a b : Activity) : Prop :=
  b.start = a.start ∧ b.stop = a.stop ∧ b.interval = a.interval ∧ b.startIx = a.startIx ∧ b.periodCount = a.periodCount

/-- The amount of the first is the sum of the (positive) amounts of the other two, and accounts, rate and duration are the same; so is, for loans, the monthly payment. -/
def KindParts : Kind → Kind → Kind → Prop
  | .basic x dt cr, .basic y dt1 cr1, .basic z dt2 cr2 => x = y + z ∧ 0 < y ∧ 0 < z ∧ dt1 = dt ∧ cr1 = cr ∧ dt2 = dt ∧ cr2 = cr
  | .loan b l i x r p d _ _, .loan b1 l1 i1 y r1 p1 d1 _ _, .loan b2 l2 i2 z r2 p2 d2 _ _ =>
    x = y + z ∧ 0 < y ∧ 0 < z ∧ p = p1 + p2 ∧ (b1 = b ∧ l1 = l ∧ i1 = i ∧ r1 = r ∧ d1 = d) ∧ (b2 = b ∧ l2 = l ∧ i2 = i ∧ r2 = r ∧ d2 = d)
  | _, _, _ => False

/-- `b` and `c` are two activities that together are for what `a` is for, at the same times.  Names, descriptions and places may differ. -/
def Parts (a b c : Activity) : Prop := SameTimes a b ∧ SameTimes a c ∧ KindParts a.kind b.kind c.kind

/-- `b` and `c` do what `a` does, the one until `t`, the other from `t`. -/
def Halves (t : Int) (a b c : Activity) : Prop :=
  (b.kind = a.kind ∧ b.interval = a.interval ∧ b.start = a.start ∧ b.stop = t) ∧ (c.kind = a.kind ∧ c.interval = a.interval ∧ c.start = t ∧ c.stop = a.stop) ∧
    Fresh a ∧ Fresh b ∧ Fresh c ∧ a.start < t ∧ t < a.stop ∧ dtMin ≤ a.start ∧ a.stop ≤ dtMax

/-- Two ledgers say the same about every account: the activities moved the same amounts between the same accounts on the same dates, the year ends made the same transactions, and so every account has the same balance from transactions on any dates. -/
def SameBooks (l l1 : List Tx) : Prop :=
  (∀ (dt cr : Str) (D : Int → Bool), flow dt cr D (posted l1) = flow dt cr D (posted l)) ∧ (closings l1).Perm (closings l) ∧
    ∀ (acc : Str) (D : Int → Bool), netCredit acc (l1.filter (fun t => D t.date)) = netCredit acc (l.filter (fun t => D t.date))

end Auxi.Business.Spec
