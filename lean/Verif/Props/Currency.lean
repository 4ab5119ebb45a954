import Verif.Proofs.Currency
import Verif.Props.Independence
import Verif.Props.Reports

/-! # C154: the unit in which amounts of money are given does not matter -/
namespace Auxi.Business.Props
open Auxi.Business Auxi.Business.Spec Time Calendar Reports

/-- **C154.** A model whose amounts are all given in another unit runs as the model does, to the same transactions with their amounts in that unit, and fails when the model fails, in the same way. -/
theorem C154_run (k : ℚ) (hk : 0 < k) (m : Model) : (Model.times k m).run = m.run.map (Model.times k) := model_run_times hk m

/-- **C154.** An activity built of an amount in another unit is the activity in that unit; a loan's monthly payment too. -/
theorem C154_activities (k : ℚ) :
    (∀ (name dt cr : Str) (amount : ℚ) (start stop interval : Int) (d : Option Str),
      newBasic name dt cr (k * amount) start stop interval d = Activity.times k (newBasic name dt cr amount start stop interval d)) ∧
    (∀ (name bank loan interest : Str) (amount rate : ℚ) (start duration interval : Int) (d : Option Str),
      newLoan name bank loan interest (k * amount) rate start duration interval d = (newLoan name bank loan interest amount rate start duration interval d).map (Activity.times k)) :=
  ⟨fun _ _ _ _ _ _ _ _ => rfl, newLoan_times⟩

/-- **C154.** A posted transaction, as the reports see it, is in the unit in which it was posted. -/
theorem C154_seen (k : ℚ) (t : Tx) : RTx.ofTx (Tx.times k t) = RTx.times k (RTx.ofTx t) := rfl

/-- **C154.** A transaction list of transactions in another unit is the same list with its amounts and its total in that unit; or it fails in the same way. -/
theorem C154_transaction_list (k : ℚ) (comp : Str) (start stop : When) (txs : List RTx) :
    transactionList comp start stop (txs.map (RTx.times k)) = (transactionList comp start stop txs).map (tableTimes k) := transactionList_times comp start stop txs

/-- **C154.** So is a balance sheet. -/
theorem C154_balance_sheet (k : ℚ) (s : Ledger.Structure) (stop : When) (txs : List RTx) :
    balanceSheet s stop (txs.map (RTx.times k)) = (balanceSheet s stop txs).map (tableTimes k) := balanceSheet_times s stop txs

/-- **C154.** So is an income statement, with the same figures in parentheses. -/
theorem C154_income_statement (k : ℚ) (hk : 0 < k) (s : Ledger.Structure) (comp : Str) (start stop : When) (txs : List RTx) :
    incomeStatement s comp start stop (txs.map (RTx.times k)) = (incomeStatement s comp start stop txs).map (tableTimes k) := incomeStatement_times hk s comp start stop txs

/-- **C154.** The reports on a run in another unit are the reports on the run in that unit. -/
theorem C154_reports_on_run (k : ℚ) (hk : 0 < k) (m m' : Model) (h : m.run = .ok m') (s : Ledger.Structure) (comp : Str) (start stop : When) :
    ∃ w : Model, (Model.times k m).run = .ok w ∧ ∀ (i : ℕ) (e : Entity), m'.entities[i]? = some e → ∃ f : Entity, w.entities[i]? = some f ∧
      transactionList comp start stop (f.transactions.map RTx.ofTx) = (transactionList comp start stop (e.transactions.map RTx.ofTx)).map (tableTimes k) ∧
      balanceSheet s stop (f.transactions.map RTx.ofTx) = (balanceSheet s stop (e.transactions.map RTx.ofTx)).map (tableTimes k) ∧
      incomeStatement s comp start stop (f.transactions.map RTx.ofTx) = (incomeStatement s comp start stop (e.transactions.map RTx.ofTx)).map (tableTimes k) := by
  refine ⟨Model.times k m', by rw [C154_run k hk m, h]; rfl, fun i e he => ⟨Entity.times k e, ?_, ?_⟩⟩
  · show (m'.entities.map (Entity.times k))[i]? = _
    rw [List.getElem?_map, he]; rfl
  · have hm : (Entity.times k e).transactions.map RTx.ofTx = (e.transactions.map RTx.ofTx).map (RTx.times k) := by
      show (e.transactions.map (Tx.times k)).map RTx.ofTx = _
      rw [List.map_map, List.map_map]; rfl
    rw [hm]
    exact ⟨transactionList_times .., balanceSheet_times .., incomeStatement_times hk ..⟩

/-- thirty months in cents: 28 transactions, each of them a hundredfold -/
example : (Model.times 100 mod0).run.map (fun m => m.entities.map (fun e => (e.transactions.map (·.amount)).sum)) =
      mod0.run.map (fun m => m.entities.map (fun e => 100 * (e.transactions.map (·.amount)).sum)) ∧
    mod0.run.map (fun m => m.entities.map (fun e => (e.transactions.length, decide ((e.transactions.map (·.amount)).sum = 0)))) = .ok [(28, false), (0, true)] := by decide +kernel

/-- the reports on a sample ledger: none fails, and the income statement differs from the one in the first unit -/
example : (transactionList "/E".toList (.date 0) (.date 10) (Reports.Props.txs0.map (RTx.times 100))).isOk = true ∧ (balanceSheet Reports.Props.gls (.date 10) (Reports.Props.txs0.map (RTx.times 100))).isOk = true ∧
    (incomeStatement Reports.Props.gls "/E".toList (.date 0) (.date 10) (Reports.Props.txs0.map (RTx.times 100))).isOk = true ∧
    (incomeStatement Reports.Props.gls "/E".toList (.date 0) (.date 10) (Reports.Props.txs0.map (RTx.times 100))).toOption ≠ (incomeStatement Reports.Props.gls "/E".toList (.date 0) (.date 10) Reports.Props.txs0).toOption := by
  rw [C154_transaction_list, C154_balance_sheet, C154_income_statement _ (by norm_num)]
  decide +kernel

/-- the reports on such a run -/
example : ∃ (m' w : Model), mod0.run = .ok m' ∧ (Model.times 100 mod0).run = .ok w ∧ m'.entities.length = 2 := by
  have h : mod0.run.map (fun m => m.entities.length) = .ok 2 := by decide +kernel
  cases hm : mod0.run with
  | error e => rw [hm] at h; cases h
  | ok m' =>
    obtain ⟨w, hw, -⟩ := C154_reports_on_run 100 (by norm_num) mod0 m' hm ⟨[], [], "".toList⟩ "".toList (.datetime 0) (.datetime 0)
    refine ⟨m', w, rfl, hw, ?_⟩
    rw [hm] at h
    simpa [Except.map] using h

/-- the unit must be a positive amount: a model of negative amounts posts nothing -/
example : ((Model.times (-1) mod0).run).map (fun m => m.entities.map (fun e => e.transactions.length)) ≠ (mod0.run).map (fun m => m.entities.map (fun e => e.transactions.length)) := by decide +kernel

end Auxi.Business.Props
