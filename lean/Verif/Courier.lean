import Verif.LedgerApi
import Verif.BusinessOps

/-! # The courier company of `/repo/auxi/examples/courier_example.py`, built through the modelled API -/
namespace Auxi.Courier
open Auxi Auxi.Ledger Auxi.Business Time Calendar

/-- `/repo/auxi/examples/courier_example.py:11-18`: six accounts are added to a new structure; `gl_structure[name]` is the top level account with that name, a position here. -/
def chart : Chart := { Chart.new "Courier GL Structure".toList with str := { Structure.new "Courier GL Structure".toList with accounts := runOps [
  .create [10] "Loan".toList (some "0000".toList) none, .create [4] "Interest Expense".toList (some "0000".toList) none, .create [12] "Vehicle Asset".toList (some "0000".toList) none,
  .create [1] "Sales Delivery".toList (some "0000".toList) none, .create [2] "Fuel".toList (some "0000".toList) none, .create [4] "Wages".toList (some "0000".toList) none] } }

/-- `/repo/auxi/examples/courier_example.py:21`. -/
def start : Int := mkDateTime 2016 2 1 0
/-- `/repo/auxi/examples/courier_example.py:22`. -/
def stop : Int := mkDateTime 2021 1 1 0

/-- `/repo/auxi/examples/courier_example.py:32-36`. -/
def loan : Res Activity :=
  newLoan "Loan".toList "Bank/Default".toList "Long Term Borrowing/Loan".toList "Expense/Interest Expense".toList 200000 (15 / 100) start 36 1 none

/-- `/repo/auxi/examples/courier_example.py:39-43`. -/
def vehicle : Activity := newBasic "Purchase Vehicle".toList "Fixed Assets/Vehicle Asset".toList "Bank/Default".toList 177000 start (addMonths start 1) 1 none
/-- `/repo/auxi/examples/courier_example.py:46-49`. -/
def delivery : Activity := newBasic "Make Delivery".toList "Bank/Default".toList "Sales/Sales Delivery".toList 15000 start stop 1 none
/-- `/repo/auxi/examples/courier_example.py:51-54`. -/
def fuel : Activity := newBasic "Pay for Fuel".toList "Cost of Sales/Fuel".toList "Bank/Default".toList 1000 start stop 1 none
/-- `/repo/auxi/examples/courier_example.py:56-59`. -/
def wages : Activity := newBasic "Pay Wages".toList "Expense/Wages".toList "Bank/Default".toList 10000 start stop 1 none

/-- `/repo/auxi/examples/courier_example.py:24-59`: the calls that build the model, in order (components 0: "Operations", 1: "HR"). -/
def calls (l : Activity) : List Business.Op :=
  [.createEntity "CourierZA".toList chart, .createTop 0 "Operations".toList none, .createTop 0 "HR".toList none,
   .addActivity 0 0 [] l, .addActivity 0 0 [] vehicle, .addActivity 0 0 [] delivery, .addActivity 0 0 [] fuel, .addActivity 0 1 [] wages]

/-- `/repo/auxi/examples/courier_example.py:24-59`: the model before `model.run()`. -/
def model (l : Activity) : Model := runModelOps "Business Model".toList (Clock.new start .month 1) 61 (calls l)

/-- `/repo/auxi/examples/courier_example.py:62-67`: `courier_company.gl` after `model.run()`, if that raised nothing. -/
def ledger (l : Activity) : Option LedgerApi.GL := match (RunState.runModel (model l)).err, (RunState.runModel (model l)).val.entities with
  | none, [e] => some ⟨e.chart.str, e.transactions.map Reports.RTx.ofTx⟩
  | _, _ => none

end Auxi.Courier
