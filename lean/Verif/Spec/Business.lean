import Verif.Business

/-!
# Specification vocabulary for business models

A *stateless* description of what a run should post: for each activity and each period, the transactions given by the
schedule and (for loans) the number of earlier executions.
-/
namespace Auxi.Business.Spec
open Auxi.Business Time Calendar

/-- The schedule in words: on multiples of the interval, within the window. -/
def Scheduled (a : Activity) (ix : Nat) : Prop :=
  (a.interval = 0 ∨ a.interval ∣ (ix : Int) + 1) ∧ a.startIx ≤ ix ∧ ix + a.interval ≤ a.endIx

instance (a : Activity) (ix : Nat) : Decidable (Scheduled a ix) := by unfold Scheduled; exact inferInstance

/-- What the activity is about is positive: the amount, and for a loan also the duration. -/
def Active (a : Activity) : Prop := match a.kind with
  | .basic amount _ _ => 0 < amount
  | .loan _ _ _ amount _ _ duration _ _ => 0 < amount ∧ 0 < duration

instance (a : Activity) : Decidable (Active a) := by unfold Active; split <;> exact inferInstance

/-- The activity has to execute in period `ix`. -/
def Due (a : Activity) (ix : Nat) : Prop := Scheduled a ix ∧ Active a

instance (a : Activity) (ix : Nat) : Decidable (Due a ix) := by unfold Due; exact inferInstance

/-- Period `i` is the first of the `n` periods of a run whose datetime is later than `t`. -/
def FirstPeriodAfter (clk : Clock) (t : Int) (n i : Nat) : Prop :=
  i < n ∧ t < clk.atIx i ∧ ∀ j : Nat, j < i → clk.atIx j ≤ t

/-- No schedule has been worked out for the activity yet, as after construction. -/
def Fresh (a : Activity) : Prop := a.startIx = -1 ∧ a.periodCount = -1

instance (a : Activity) : Decidable (Fresh a) := by unfold Fresh; exact inferInstance

/-- The clock in its period `i`. -/
def clockAt (clk : Clock) (i : Nat) : Clock := { clk with ix := i }

/-- Number of executions of an activity in periods `0 .. i-1`. -/
def execsBefore (a : Activity) (i : Nat) : Nat := ((List.range i).filter (fun k => Due a k)).length

/-- Outstanding amount after the loan was made and `j` instalments were paid. -/
def outstanding (amount rate payment : ℚ) : Nat → ℚ
  | 0 => amount
  | j + 1 => outstanding amount rate payment j * (1 + rate / 12) - payment

/-- Transactions an activity should post in period `i`. -/
def txsAt (clk : Clock) (a : Activity) (i : Nat) : List Tx :=
  if Due a i then
    let mk (descr : String) (dt cr : Str) (amount : ℚ) : Tx :=
      { name := a.description.getD a.name, description := some descr.toList, date := clk.atIx i, dt, cr,
        source := a.path, amount }
    match a.kind with
    | .basic amount dt cr => [mk "" dt cr amount]
    | .loan bank loan interest amount rate payment _ _ _ =>
      match execsBefore a i with
      | 0 => [mk "Make a loan" bank loan amount]
      | j + 1 => [mk "Consider interest" interest loan (outstanding amount rate payment j * rate / 12),
                  mk "Pay principle" loan bank payment]
  else []

/-- The effect of running one activity in periods `0 .. n-1`: final state, transactions in order of posting. -/
def runFor (clk : Clock) (a : Activity) : Nat → Activity × List Tx
  | 0 => (a, [])
  | n + 1 =>
    let r := (runFor clk a n).1.run (clockAt clk n)
    (r.1, (runFor clk a n).2 ++ r.2)

/-- One entity run on its own: prepared for `n` periods, then executed in periods `0 .. n-1` in turn. -/
def runEntityFor (clk : Clock) (n : Nat) (e : Entity) : Res Entity :=
  (List.range n).foldlM (fun e i => e.run (clockAt clk i)) (e.prepare (clockAt clk 0) n)

mutual
/-- All activities of a component tree, sub components first. -/
def activitiesOf : Component → List Activity
  | ⟨_, _, _, _, cs, as⟩ => activitiesOfList cs ++ as
/-- All activities of a list of components. -/
def activitiesOfList : List Component → List Activity
  | [] => []
  | c :: cs => activitiesOf c ++ activitiesOfList cs
end

/-- The transactions posted by activities (as opposed to year end closing transactions). -/
def posted (txs : List Tx) : List Tx := txs.filter (fun t => !t.closingCr)

/-- Everything the activities `as` (already prepared) should post in a run of `n` periods: period by period,
activity by activity. -/
def expected (clk : Clock) (n : Nat) (as : List Activity) : List Tx :=
  (List.range n).flatMap (fun i => as.flatMap (fun a => txsAt clk a i))

/-- Credits minus debits of an account in a list of transactions. -/
def netCredit (acc : Str) (txs : List Tx) : ℚ :=
  (txs.map (fun t => (if t.cr = acc then t.amount else 0) - (if t.dt = acc then t.amount else 0))).sum

/-- Total debited to an account. -/
def debits (acc : Str) (txs : List Tx) : ℚ := ((txs.filter (fun t => t.dt = acc)).map Tx.amount).sum
/-- Total credited to an account. -/
def credits (acc : Str) (txs : List Tx) : ℚ := ((txs.filter (fun t => t.cr = acc)).map Tx.amount).sum

/-- Loans have a positive repayment interval (an interval of 0 would never count a month as executed). -/
def LoansOk (as : List Activity) : Prop :=
  ∀ a ∈ as, ∀ b l i am r p d m lf, a.kind = .loan b l i am r p d m lf → a.interval ≠ 0

end Auxi.Business.Spec
