import Verif.Business
import Verif.Rounding

/-!
# Loans with the arithmetic of the machine

The figures of `BasicLoanActivity` (`/repo/auxi/modelling/business/basic.py:194-198,213-217,238-289`) with every operation on `float`s rounded by `rnd` (`rnd64` of `Verif.Rounding` for Python's
floats) and the power function of the C library as a parameter `pw`.  Simplifications: amounts are `float`s (an `int` amount below `2 ** 53` behaves as one), no overflow.
-/
namespace Auxi.LoanFloat
open Auxi Auxi.Business Auxi.Calendar Auxi.Rounding

variable (rnd : ℚ → ℚ) (pw : ℚ → ℤ → ℚ)

/-- `_update_monthly_payment_` with `_monthly_interest_rate` of the `interest_rate` setter (`basic.py:194-198,216`). -/
def paymentF (amount rate : ℚ) (duration : ℤ) : Res ℚ :=
  let r := rnd (rate / 12)
  let x := rnd (1 + r)
  if x = 0 then .error .zeroDivisionError
  else
    let q := pw x duration
    if q = 0 then .error .zeroDivisionError
    else
      let den := rnd (1 - rnd (1 / q))
      if den = 0 then .error .zeroDivisionError else .ok (rnd (rnd (amount * r) / den))

/-- `BasicLoanActivity.__init__` (`basic.py:166-192,213-217`). -/
def newLoanF (name bank loan interest : Str) (amount rate : ℚ) (start duration interval : Int) (description : Option Str) : Res Activity :=
  match paymentF rnd pw amount rate duration with
  | .error e => .error e
  | .ok p => .ok (Activity.new name start (addMonths start (duration + 1)) interval description (.loan bank loan interest amount rate p duration 0 amount))

/-- `curr_interest_amount` (`basic.py:266-267`). -/
def interestF (rate left : ℚ) : ℚ := rnd (rnd (left * rate) / 12)

/-- The new `_amount_left` (`basic.py:287`). -/
def leftF (rate payment left : ℚ) : ℚ := rnd (left + rnd (interestF rnd rate left - payment))

/-- `run` (`basic.py:61-81,238-289`). -/
def runF (clk : Time.Clock) (a : Activity) : Activity × List Tx :=
  if a.meets clk.ix = false then (a, [])
  else match a.kind with
  | .basic amount dt cr => (a, [{ name := a.txName, description := some [], date := clk.now, dt, cr, source := a.path, amount }])
  | .loan bank loan interest amount rate payment duration months left =>
    if months = 0 then
      ({ a with kind := .loan bank loan interest amount rate payment duration (months + a.interval) left },
       [{ name := a.txName, description := some "Make a loan".toList, date := clk.now, dt := bank, cr := loan, source := a.path, amount }])
    else
      ({ a with kind := .loan bank loan interest amount rate payment duration (months + a.interval) (leftF rnd rate payment left) },
       [{ name := a.txName, description := some "Consider interest".toList, date := clk.now, dt := interest, cr := loan, source := a.path, amount := interestF rnd rate left },
        { name := a.txName, description := some "Pay principle".toList, date := clk.now, dt := loan, cr := bank, source := a.path, amount := payment }])

end Auxi.LoanFloat
