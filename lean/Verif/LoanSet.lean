import Verif.Business

/-!
# Model of changing a loan after it has been made

The attributes `amount`, `interest_rate` and `duration` of a `BasicLoanActivity` (`/repo/auxi/modelling/business/basic.py:200-217`).  A setter that raises leaves the object as far as it got:
the outcome comes with the activity afterwards.  Simplification: only for loans; another activity is left as it is.
-/
namespace Auxi.Business

/-- `loan.amount = v` (`basic.py:204-207`). -/
def Activity.setAmount (v : ℚ) (a : Activity) : Res Unit × Activity := match a.kind with
  | .loan b l t _ r p d m lf => match monthlyPayment v r d with
    | .error e => (.error e, { a with kind := .loan b l t v r p d m lf })
    | .ok p' => (.ok (), { a with kind := .loan b l t v r p' d m lf })
  | .basic .. => (.ok (), a)

/-- `loan.interest_rate = v` (`basic.py:213-217`). -/
def Activity.setRate (v : ℚ) (a : Activity) : Res Unit × Activity := match a.kind with
  | .loan b l t am _ p d m lf => match monthlyPayment am v d with
    | .error e => (.error e, { a with kind := .loan b l t am v p d m lf })
    | .ok p' => (.ok (), { a with kind := .loan b l t am v p' d m lf })
  | .basic .. => (.ok (), a)

/-- `loan.duration = v` (`basic.py:188`: a plain attribute). -/
def Activity.setDuration (v : Int) (a : Activity) : Activity := match a.kind with
  | .loan b l t am r p _ m lf => { a with kind := .loan b l t am r p v m lf }
  | .basic .. => a

end Auxi.Business
