import Verif.Proofs.RunReports
import Verif.Props.LedgerApi
import Verif.Courier

/-! # C141: a model built through the API runs to the end, and its reports can be made -/
namespace Auxi.RunReports.Props
open Auxi Auxi.Ledger Auxi.Business Auxi.Business.Spec Auxi.Reports Auxi.Reports.Spec Auxi.LedgerApi Auxi.RunReports.Spec Auxi.RunReports Time Calendar

theorem forall₂_right {α β : Type} {R : α → β → Prop} {l : List α} {l' : List β} (h : List.Forall₂ R l l') {b : β} (hb : b ∈ l') : ∃ a ∈ l, R a b := by
  induction h with
  | nil => simp at hb
  | cons h1 _ ih =>
    simp only [List.mem_cons] at hb
    rcases hb with rfl | hb
    · exact ⟨_, by simp, h1⟩
    · obtain ⟨a, ha, hr⟩ := ih hb
      exact ⟨a, by simp [ha], hr⟩

theorem has_type {c : Chart} {p : Str} (h : Has c p) : (typeOf? c.str (some p)).isSome = true := by
  obtain ⟨a, ha⟩ := Option.isSome_iff_exists.1 h
  unfold accountAt at ha
  simp [typeOf?, typeOf, ha]

/-- **C141.** A model whose charts still have the accounts of the year end, whose activities refer to accounts that exist and debit no revenue account outside sales and cost of sales, and whose
dates stay before the year 9999, runs to the end without an exception. Each ledger then has only transactions with a time, a source, and two accounts of the entity's chart. -/
theorem C141_runs (m : Model) (h1 : dtMin ≤ m.clock.start) (h2 : year (m.clock.atIx m.periodCount) ≤ 9998)
    (h : ∀ e ∈ m.entities, Complete e.chart ∧ NoRefunds e ∧ ∀ a ∈ activitiesOfList e.components, ∀ p ∈ a.referencedAccounts, (accountAt e.chart p).isSome) :
    (RunState.runModel m).err = none ∧ ∀ e ∈ (RunState.runModel m).val.entities, ∀ t ∈ (glOf e).transactions,
      LedgerApi.Props.Timed t ∧ t.source.isSome ∧ (typeOf? (glOf e).structure_ t.cr).isSome ∧ (typeOf? (glOf e).structure_ t.dt).isSome := by
  obtain ⟨m', r, inv⟩ := model_runs m (fun e he => ⟨(h e he).1, fun a ha => ⟨(h e he).2.2 a ha, (h e he).2.1 a ha⟩⟩)
  have hr := RunState.Props.C127_before_9999 m h1 h2
  have herr : (RunState.runModel m).err = none := by
    cases hx : (RunState.runModel m).err with
    | none => rfl
    | some x => rw [hx, r] at hr; cases hr
  rw [herr, r] at hr
  simp only [Except.ok.injEq] at hr
  refine ⟨herr, ?_⟩
  intro e he t ht
  have hd := RunState.Props.C127_tx_dates m h1 h2 e he
  rw [← hr] at he
  obtain ⟨e0, -, i⟩ := forall₂_right inv he
  simp only [glOf, List.mem_map] at ht
  obtain ⟨x, hx, rfl⟩ := ht
  obtain ⟨d1, d2⟩ := hd x hx
  have d3 : x.date ≤ dtMax := RunState.le_dtMax_of_year (by have := RunState.year_le (Int.le_of_lt d2); omega)
  obtain ⟨a1, a2, -⟩ := i.txs x hx
  refine ⟨⟨x.date, rfl, by omega, d3⟩, rfl, ?_, ?_⟩
  · show (typeOf? e.chart.str (some x.cr)).isSome = true
    rw [i.chart]; exact has_type a1
  · show (typeOf? e.chart.str (some x.dt)).isSome = true
    rw [i.chart]; exact has_type a2

/-- **C141 (reports).** After such a run the transaction list, the balance sheet and the income statement of every entity can be made without arguments, in every format: the list shows every
transaction of the ledger once, in the order of time; the totals of the balance sheet differ by what the ledger has in revenue and expense accounts; the income statement covers every transaction. -/
theorem C141_reports (m : Model) (h1 : dtMin ≤ m.clock.start) (h2 : year (m.clock.atIx m.periodCount) ≤ 9998)
    (h : ∀ e ∈ m.entities, Complete e.chart ∧ NoRefunds e ∧ ∀ a ∈ activitiesOfList e.components, ∀ p ∈ a.referencedAccounts, (accountAt e.chart p).isSome)
    (e : Entity) (he : e ∈ (RunState.runModel m).val.entities) (out : Style → Table → Str) (f : Format) (path : Option Str) :
    (∃ l : List RTx, l.Perm (glOf e).transactions ∧ l.Pairwise (fun a b => a.date.key ≤ b.date.key) ∧
      (glOf e).transactionList out (format := f) (path := path) = render out (.ok (
        [tx "Date", tx "Source", tx "Tx Name", tx "Debit Account", tx "Credit Account", tx "Amount", tx "Description"] :: l.map (fun t => txRow t (t.source.getD [])) ++
        [[tx "", tx "", tx "Total", tx "", tx "", .money ((glOf e).transactions.map RTx.amount).sum, tx ""]])) path f) ∧
    (∃ b : Sheet, (glOf e).balanceSheet out (format := f) (path := path) = render out (sheetTable b) path f ∧ (∃ t, sheetTable b = .ok t) ∧
      dictSum b.assets - (dictSum b.liabilities + dictSum b.equity) = netCreditOf e.chart.str isIncome (glOf e).transactions) ∧
    (∃ b : Income, (glOf e).incomeStatement out (format := f) (path := path) = render out (.ok (incomeTable b)) path f ∧
      incomeSums e.chart.str [] (.datetime dtMin) (.datetime dtMax) (glOf e).transactions = .ok b ∧
      (glOf e).transactions.filter (selected [] (.datetime dtMin) (.datetime dtMax)) = (glOf e).transactions) := by
  have key := (C141_runs m h1 h2 h).2 e he
  refine ⟨LedgerApi.Props.C140_transaction_list (glOf e) out f path (fun t ht => ⟨(key t ht).1, (key t ht).2.1⟩), ?_, LedgerApi.Props.C140_income_statement (glOf e) out f path key⟩
  obtain ⟨b, b1, b2, b3⟩ := LedgerApi.Props.C140_balance_sheet (glOf e) out f path (fun t ht => ⟨(key t ht).1, (key t ht).2.2⟩)
  exact ⟨b, b1, ⟨_, sheetTable_eq b⟩, b3⟩

theorem op_clock (m : Model) (op : Business.Op) : (op.apply m).clock.reset = m.clock.reset ∧ (op.apply m).periodCount = m.periodCount := by
  cases op with
  | run =>
    show (RunState.runModel m).val.clock.reset = _ ∧ (RunState.runModel m).val.periodCount = _
    have hp : ∀ p : Model, (RunState.runPrepared p).val.clock.reset = p.clock.reset ∧ (RunState.runPrepared p).val.periodCount = p.periodCount := by
      intro p
      have := RunState.runLoop_clock p.periodCount p.clock p.entities
      unfold RunState.runPrepared
      exact ⟨this, rfl⟩
    have hq : (RunState.prepareModel m).val.clock.reset = m.clock.reset ∧ (RunState.prepareModel m).val.periodCount = m.periodCount := by
      unfold RunState.prepareModel
      exact ⟨rfl, rfl⟩
    unfold RunState.runModel
    cases hx : RunState.prepareModel m with
    | mk p o =>
      rw [hx] at hq
      cases o with
      | some e => exact hq
      | none => exact ⟨(hp p).1.trans hq.1, (hp p).2.trans hq.2⟩
  | _ => exact ⟨rfl, rfl⟩

theorem ops_clock (ops : List Business.Op) : ∀ m : Model, (ops.foldl Business.Op.apply m).clock.reset = m.clock.reset ∧ (ops.foldl Business.Op.apply m).periodCount = m.periodCount := by
  induction ops with
  | nil => intro m; exact ⟨rfl, rfl⟩
  | cons op ops ih =>
    intro m
    obtain ⟨i1, i2⟩ := ih (op.apply m)
    obtain ⟨o1, o2⟩ := op_clock m op
    exact ⟨i1.trans o1, i2.trans o2⟩

/-- **C141 (histories).** A model built by any sequence of calls only needs complete charts and activities that do not debit revenue accounts outside sales and cost of sales: that the accounts
exist was checked when the activities were added. -/
theorem C141_history (nm : Str) (clk : Clock) (n : Nat) (ops : List Business.Op) (h1 : dtMin ≤ clk.start) (h2 : year (clk.atIx n) ≤ 9998)
    (h : ∀ e ∈ (runModelOps nm clk n ops).entities, Complete e.chart ∧ NoRefunds e) :
    (RunState.runModel (runModelOps nm clk n ops)).err = none ∧
    ∀ e ∈ (RunState.runModel (runModelOps nm clk n ops)).val.entities, ∀ (out : Style → Table → Str) (f : Format) (path : Option Str),
      (∃ r, (glOf e).transactionList out (format := f) (path := path) = .ok r) ∧ (∃ r, (glOf e).balanceSheet out (format := f) (path := path) = .ok r) ∧
      (∃ r, (glOf e).incomeStatement out (format := f) (path := path) = .ok r) := by
  obtain ⟨c1, c2⟩ := ops_clock ops (Model.new nm clk n)
  have hs : (runModelOps nm clk n ops).clock.start = clk.start := by
    have := congrArg Clock.start c1
    exact this
  have ha : (runModelOps nm clk n ops).clock.atIx (runModelOps nm clk n ops).periodCount = clk.atIx n := by
    have : (runModelOps nm clk n ops).periodCount = n := c2
    rw [this]
    have hc := congrArg (fun c => Clock.atIx c n) c1
    exact hc
  have hall : ∀ e ∈ (runModelOps nm clk n ops).entities, Complete e.chart ∧ NoRefunds e ∧ ∀ a ∈ activitiesOfList e.components, ∀ p ∈ a.referencedAccounts, (accountAt e.chart p).isSome :=
    fun e he => ⟨(h e he).1, (h e he).2, wf_listed (entWF_ops ops (Model.new nm clk n) (by simp [Model.new]) e he)⟩
  refine ⟨(C141_runs _ (by rw [hs]; exact h1) (by rw [ha]; exact h2) hall).1, ?_⟩
  intro e he out f path
  have ok : ∀ t : Table, ∃ r, render out (.ok t) path f = .ok r := fun t => by
    obtain ⟨a, b, hr, -⟩ := Reports.Props.C15_render out t path f
    exact ⟨_, hr⟩
  obtain ⟨⟨l, -, -, r1⟩, ⟨b, r2, ⟨t, ht⟩, -⟩, ⟨i, r3, -⟩⟩ := C141_reports _ (by rw [hs]; exact h1) (by rw [ha]; exact h2) hall e he out f path
  rw [r1, r2, r3, ht]
  exact ⟨ok _, ok _, ok _⟩

/-- `PlainRevenue`, decided. -/
def plainB (c : Chart) (p : Str) : Bool := (accountAt c p).any (fun a => a.accountType = .revenue) && !TradingAcc c p

theorem plain_of {c : Chart} {p : Str} (h : plainB c p = false) : ¬ PlainRevenue c p := by
  rintro ⟨⟨a, ha, ht⟩, hn⟩
  simp [plainB, ha, ht, hn] at h

theorem chart_complete : Complete Courier.chart := by
  refine ⟨⟨[.create [10] "Loan".toList (some "0000".toList) none, .create [4] "Interest Expense".toList (some "0000".toList) none, .create [12] "Vehicle Asset".toList (some "0000".toList) none,
    .create [1] "Sales Delivery".toList (some "0000".toList) none, .create [2] "Fuel".toList (some "0000".toList) none, .create [4] "Wages".toList (some "0000".toList) none], ?_, rfl⟩, ?_, ?_, ?_⟩
  · intro op hop
    simp only [List.mem_cons, List.not_mem_nil, or_false] at hop
    rcases hop with rfl | rfl | rfl | rfl | rfl | rfl <;> trivial
  · decide +kernel
  · decide +kernel
  · decide +kernel

/-- The loan of the example. -/
def theLoan : Activity := match Courier.loan with
  | .ok a => a
  | .error _ => Courier.vehicle

/-- **C141 (the example that is shipped).** The courier company of the examples: the loan can be made, the model runs to the end without an exception, the three reports printed at its end can be
made, in every format; the loan is repaid to the last cent, the vehicle was bought once, and there are 280 transactions. -/
theorem C141_courier : ∃ l, Courier.loan = .ok l ∧ ∃ g, Courier.ledger l = some g ∧ g.transactions.length = 280 ∧ Reports.Spec.netCredit "Long Term Borrowing/Loan".toList g.transactions = 0 ∧
    Reports.Spec.netCredit "Fixed Assets/Vehicle Asset".toList g.transactions = -177000 ∧
    ∀ (out : Style → Table → Str) (f : Format) (path : Option Str), (∃ r, g.transactionList out (format := f) (path := path) = .ok r) ∧
      (∃ r, g.balanceSheet out (format := f) (path := path) = .ok r) ∧ (∃ r, g.incomeStatement out (format := f) (path := path) = .ok r) := by
  have hl : Courier.loan = .ok theLoan := by decide +kernel
  refine ⟨theLoan, hl, ?_⟩
  have hall : ∀ e ∈ (Courier.model theLoan).entities, ∀ a ∈ activitiesOfList e.components, ∀ p ∈ debited a, plainB e.chart p = false := by decide +kernel
  have hch : ∀ e ∈ (Courier.model theLoan).entities, e.chart = Courier.chart := by
    intro e he
    have : (Courier.model theLoan).entities.map Entity.chart = [Courier.chart] := rfl
    have hm := List.mem_map_of_mem (f := Entity.chart) he
    rw [this] at hm
    exact List.mem_singleton.1 hm
  obtain ⟨h1, h2⟩ := C141_history "Business Model".toList (Clock.new Courier.start .month 1) 61 (Courier.calls theLoan) (by decide +kernel) (by decide +kernel)
    (fun e he => ⟨by rw [hch e he]; exact chart_complete, fun a ha p hp => plain_of (hall e he a ha p hp)⟩)
  have hn : ((RunState.runModel (Courier.model theLoan)).val.entities.map (fun e => (e.transactions.length, Reports.Spec.netCredit "Long Term Borrowing/Loan".toList (glOf e).transactions,
      Reports.Spec.netCredit "Fixed Assets/Vehicle Asset".toList (glOf e).transactions))) = [(280, 0, -177000)] := by decide +kernel
  cases hes : (RunState.runModel (Courier.model theLoan)).val.entities with
  | nil => rw [hes] at hn; cases hn
  | cons e es =>
    rw [hes] at hn
    cases es with
    | cons e' es => simp at hn
    | nil =>
      simp only [List.map_cons, List.map_nil, List.cons.injEq, Prod.mk.injEq, and_true] at hn
      refine ⟨glOf e, ?_, ?_, hn.2.1, hn.2.2, fun out f path => h2 e (by show e ∈ (RunState.runModel (Courier.model theLoan)).val.entities; rw [hes]; simp) out f path⟩
      · unfold Courier.ledger
        have h1' : (RunState.runModel (Courier.model theLoan)).err = none := h1
        rw [h1', hes]
        rfl
      · simp [glOf, hn.1]

/-- **C141 fails when an activity debits other income.** All accounts exist and the dates are in order, but the run raises at the first year end. -/
theorem C141_refund_violated : ¬ ∀ (nm : Str) (clk : Clock) (n : Nat) (ops : List Business.Op), dtMin ≤ clk.start → year (clk.atIx n) ≤ 9998 →
    (∀ e ∈ (runModelOps nm clk n ops).entities, Complete e.chart) → (RunState.runModel (runModelOps nm clk n ops)).err = none := by
  intro h
  have hm := h "M".toList (Clock.new Courier.start .month 1) 14 [.createEntity "E".toList Courier.chart, .createTop 0 "C".toList none,
    .addActivity 0 0 [] (newBasic "Refund".toList "Other Income".toList "Bank/Default".toList 10 dtMin dtMax 1 none)] (by decide +kernel) (by decide +kernel)
    (fun e he => by
      have hx : e.chart = Courier.chart := by
        have : ((runModelOps "M".toList (Clock.new Courier.start .month 1) 14 [.createEntity "E".toList Courier.chart, .createTop 0 "C".toList none,
          .addActivity 0 0 [] (newBasic "Refund".toList "Other Income".toList "Bank/Default".toList 10 dtMin dtMax 1 none)]).entities.map Entity.chart) = [Courier.chart] := rfl
        have hm := List.mem_map_of_mem (f := Entity.chart) he
        rw [this] at hm
        exact List.mem_singleton.1 hm
      rw [hx]; exact chart_complete)
  revert hm
  decide +kernel

/-- A chart without the account "Gross Profit", which `remove_account` removes like any other. -/
def chartR : Chart := { Chart.new "GL".toList with str := { Structure.new "GL".toList with accounts := runOps [.create [1] "Ore".toList none none, .remove [0] "Gross Profit".toList] } }

/-- Selling ore for more than a year with that chart. -/
def callsR : List Business.Op := [.createEntity "E".toList chartR, .createTop 0 "C".toList none, .addActivity 0 0 [] (newBasic "Sell".toList "Bank/Default".toList "Sales/Ore".toList 10 dtMin dtMax 1 none)]

/-- **C141 fails when an account of the year end was removed.** The run books the year end to an account that the chart does not have any more, without an exception, and no balance sheet can
be made afterwards. -/
theorem C141_removed_violated : ReachableChart chartR ∧ (RunState.runModel (runModelOps "M".toList (Clock.new Courier.start .month 1) 14 callsR)).err = none ∧
    ∃ e ∈ (RunState.runModel (runModelOps "M".toList (Clock.new Courier.start .month 1) 14 callsR)).val.entities,
      ∀ (out : Style → Table → Str) (f : Format) (path : Option Str), ∃ x, (glOf e).balanceSheet out (format := f) (path := path) = .error x := by
  refine ⟨⟨[.create [1] "Ore".toList none none, .remove [0] "Gross Profit".toList], ?_, rfl⟩, by decide +kernel, ?_⟩
  · intro op hop
    simp only [List.mem_cons, List.not_mem_nil, or_false] at hop
    rcases hop with rfl | rfl <;> trivial
  · have hn : (RunState.runModel (runModelOps "M".toList (Clock.new Courier.start .month 1) 14 callsR)).val.entities.any
        (fun e => !(sheetSums e.chart.str (.datetime dtMax) (glOf e).transactions).isOk) = true := by decide +kernel
    obtain ⟨e, he, hx⟩ := List.any_eq_true.1 hn
    refine ⟨e, he, fun out f path => ?_⟩
    cases hs : sheetSums e.chart.str (.datetime dtMax) (glOf e).transactions with
    | ok b => rw [hs] at hx; cases hx
    | error x =>
      refine ⟨x, ?_⟩
      unfold LedgerApi.GL.balanceSheet DateText.balanceSheetTo DateText.getDate Reports.balanceSheet
      dsimp only
      rw [show (glOf e).structure_ = e.chart.str from rfl, hs]
      rfl

end Auxi.RunReports.Props
