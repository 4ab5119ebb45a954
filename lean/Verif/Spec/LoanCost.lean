import Verif.Spec.Business

/-! # What a loan costs -/
namespace Auxi.Business.Spec
open Business

/-- What `d` monthly payments of `p`, the first in a month, are worth today at an interest of `rate` per year. -/
def presentValue (rate p : ℚ) (d : Nat) : ℚ := ((List.range d).map (fun k => p / (1 + rate / 12) ^ (k + 1))).sum

/-- The loan's terms: the call of the constructor succeeds and the loan has the monthly payment `p`. -/
def LoanPays (name b l t : Str) (am rate : ℚ) (start d interval : Int) (descr : Option Str) (a : Activity) (p : ℚ) : Prop :=
  newLoan name b l t am rate start d interval descr = .ok a ∧ a.kind = .loan b l t am rate p d 0 am

/-- The amounts booked to the debit of an account. -/
def debited (acc : Str) (txs : List Tx) : List ℚ := (txs.filter (fun t => t.dt = acc)).map Tx.amount

end Auxi.Business.Spec
