import Verif.Proofs.YearRun
import Verif.Props.Run
import Verif.Props.Ledger
/-! # Properties of the year end procedure: C26–C29, C33, C37 -/
namespace Auxi.Business.Props
open Auxi.Business Spec Time Calendar Ledger Ledger.Spec

theorem reachable_good {c : Chart} (h : ReachableChart c) : GoodChart c :=
  goodChart_of_reachable h (fun ops => (Ledger.Props.C08_top_level_fixed ops).1)
    (fun ops i p top a => Ledger.Props.C08_type_of_top ops i p top a)
    (fun ops hops pos a ha => Ledger.Props.C03_paths_spell_position ops hops pos a ha)

theorem chart0_reachable : ReachableChart chart0 := by
  refine ⟨_, ?_, rfl⟩
  intro op hop
  simp only [List.mem_cons, List.not_mem_nil, or_false] at hop
  rcases hop with rfl | rfl | rfl | rfl | rfl <;> trivial

/-- facts about a complete run of an entity -/
theorem run_facts {clk : Clock} {n : Nat} {e e' : Entity} (h : runEntityFor clk n e = .ok e') :
    ∃ Q, YInv clk n n Q e.chart e.path e' ∧ yearsClosed clk n 0 (e.prepare (clockAt clk 0) n) =
      (List.range Q).map (fun q => (yearStart clk.start q, yearStart clk.start (q + 1))) := by
  rw [runEntityFor_eq] at h
  obtain ⟨Q, h1, h2⟩ := yinv_run n 0 0 _ e' (by omega) (yinv_init clk n e) h
  rw [Nat.zero_add] at h1
  exact ⟨Q, h1, by rw [h2, List.range_eq_range']⟩

/-- **C29.** The years closed in a run are exactly the financial years, counted from the start of the clock in steps
of one calendar year, whose end has been reached by the last period: each once, in order, without gap or overlap. -/
theorem C29_years_closed (clk : Clock) (n : Nat) (e e' : Entity) (h : runEntityFor clk n e = .ok e') :
    ∃ Q, yearsClosed clk n 0 (e.prepare (clockAt clk 0) n) =
        (List.range Q).map (fun q => (yearStart clk.start q, yearStart clk.start (q + 1))) ∧
      ∀ q, q < Q ↔ (∃ j : Nat, j < n ∧ yearStart clk.start (q + 1) ≤ clk.atIx j) := by
  obtain ⟨Q, inv, hw⟩ := run_facts h
  refine ⟨Q, hw, fun q => ⟨fun hq => ?_, ?_⟩⟩
  · obtain ⟨j, j1, j2⟩ := inv.past (by omega)
    exact ⟨j, j1, le_trans (yearStart_mono _ (by omega)) j2⟩
  · rintro ⟨j, j1, j2⟩
    by_contra hq
    have := inv.notyet' j j1
    have := yearStart_mono clk.start (p := Q + 1) (q := q + 1) (by omega)
    omega

/-- **C29 (year lengths).** Financial years follow each other without gap, and each is longer than any period that is
not itself a month or year. -/
theorem C29_years_increase (t : Int) (q : Nat) : yearStart t (q + 1) = addYears (yearStart t q) 1 ∧
    yearStart t q + 12 * 86400000000 ≤ yearStart t (q + 1) := ⟨rfl, yearStart_lt t q⟩

/-- **C29 (dates).** Every closing transaction is dated one second before the end of one of the closed years; every
other transaction is dated by a period of the run. -/
theorem C29_dates (clk : Clock) (n : Nat) (e e' : Entity) (h : runEntityFor clk n e = .ok e') (t : Tx) (ht : t ∈ e'.transactions) :
    (t.closingCr = true → ∃ w ∈ yearsClosed clk n 0 (e.prepare (clockAt clk 0) n), t.date = w.2 - 1000000) ∧
    (t.closingCr = false → ∃ j : Nat, j < n ∧ t.date = clk.atIx j) := by
  obtain ⟨Q, inv, hw⟩ := run_facts h
  refine ⟨fun hc => ?_, fun hc => inv.dates t ht hc⟩
  obtain ⟨q, q1, q2⟩ := inv.closings t ht hc
  rw [hw]
  exact ⟨_, List.mem_map.2 ⟨q, List.mem_range.2 q1, rfl⟩, q2⟩

/-- **C29 (one period).** In one period at most one year is closed, and only when its end has been reached. -/
theorem C29_one_per_period (clk : Clock) (e e' : Entity) (h : e.run clk = .ok e') (hp : (clk.ix : Int) < e.periodCount) :
    (clk.now < e.currYearEnd → e'.prevYearEnd = e.prevYearEnd ∧ e'.currYearEnd = e.currYearEnd ∧
      e'.transactions = e.transactions ++ (runComponents clk e.components).2) ∧
    (e.currYearEnd ≤ clk.now → e'.prevYearEnd = e.currYearEnd ∧
      e'.currYearEnd = min (addYears e.currYearEnd 1) e.execYearEnd) := by
  unfold Entity.run at h
  rw [if_neg (by omega)] at h
  simp only at h
  unfold Entity.yearEnd at h
  constructor
  · intro hlt
    rw [if_neg] at h
    · simp only [Except.ok.injEq] at h; subst h; exact ⟨rfl, rfl, rfl⟩
    · rintro (hh | hh)
      · exact absurd hh (by simp only; omega)
      · simp only at hh; omega
  · intro hge
    rw [if_pos (.inl hge)] at h
    split at h
    · cases h
    · simp only [Except.ok.injEq] at h; subst h
      refine ⟨rfl, ?_⟩
      show (if addYears e.currYearEnd 1 > e.execYearEnd then e.execYearEnd else addYears e.currYearEnd 1) = _
      split <;> omega

example : (runEntityFor clkM 30 ent0).isOk = true ∧
    (yearsClosed clkM 30 0 (ent0.prepare (clockAt clkM 0) 30)).length = 2 := by
  constructor <;> decide +kernel

/-- **C33 is false of the code.** A run over exactly one year (12 months) does not close that year: the last period
starts before the year end and no procedure runs after it. -/
theorem C33_last_year_not_closed : ¬ ∀ (clk : Clock) (n : Nat) (e e' : Entity), runEntityFor clk n e = .ok e' →
    ∀ q, yearStart clk.start (q + 1) ≤ clk.atIx n →
      (yearStart clk.start q, yearStart clk.start (q + 1)) ∈ yearsClosed clk n 0 (e.prepare (clockAt clk 0) n) := by
  intro h
  have hr : (runEntityFor clkM 12 ent0).isOk = true := by decide +kernel
  cases hh : runEntityFor clkM 12 ent0 with
  | error x => rw [hh] at hr; cases hr
  | ok e' =>
    have := h clkM 12 ent0 e' hh 0 (by decide +kernel)
    revert this; decide +kernel

/-- **C33 (what holds).** A year is closed exactly when some period of the run starts at or after its end. -/
theorem C33_closed_iff_reached_partial (clk : Clock) (n : Nat) (e e' : Entity) (h : runEntityFor clk n e = .ok e') (q : Nat) :
    (yearStart clk.start q, yearStart clk.start (q + 1)) ∈ yearsClosed clk n 0 (e.prepare (clockAt clk 0) n) ↔
      ∃ j : Nat, j < n ∧ yearStart clk.start (q + 1) ≤ clk.atIx j := by
  obtain ⟨Q, h1, h2⟩ := C29_years_closed clk n e e' h
  rw [h1, ← h2]
  simp only [List.mem_map, List.mem_range, Prod.mk.injEq]
  constructor
  · rintro ⟨a, a1, a2, _⟩
    have : a = q := by
      rcases lt_trichotomy a q with hl | he | hl
      · have := yearStart_mono clk.start (p := a + 1) (q := q) (by omega)
        have h3 := yearStart_lt clk.start a
        unfold dayUs at h3
        omega
      · exact he
      · have := yearStart_mono clk.start (p := q + 1) (q := a) (by omega)
        have h3 := yearStart_lt clk.start q
        unfold dayUs at h3
        omega
    omega
  · intro hq; exact ⟨q, hq, rfl, rfl⟩

/-! ## Effect on the accounts -/

/-- One closed year of a run, in terms of the procedure's parts. -/
theorem closed_year {clk : Clock} {n : Nat} {e e' : Entity} (h : runEntityFor clk n e = .ok e') {a b : Int}
    (hab : (a, b) ∈ yearsClosed clk n 0 (e.prepare (clockAt clk 0) n)) :
    ∃ w, classifyAll e.chart ⟨[], []⟩ (inWindow a b (posted e'.transactions)) = .ok w ∧
      inWindow a b e'.transactions = inWindow a b (posted e'.transactions) ++ closingTxs e.chart e.path (b - 1000000) w := by
  obtain ⟨Q, inv, hw⟩ := run_facts h
  rw [hw] at hab
  simp only [List.mem_map, List.mem_range, Prod.mk.injEq] at hab
  obtain ⟨q, q1, rfl, rfl⟩ := hab
  exact inv.closed q q1

theorem guard_internal {c : Chart} (gc : GoodChart c) {txs : List Tx} (h : OneIncomeSide c txs) :
    ∀ t ∈ txs, ¬ (optInc (ref c t.cr) = true ∧ optInc (ref c t.dt) = true) := by
  intro t ht hh
  refine h t ht ⟨?_, ?_⟩
  · rw [gc.income]; exact hh.2
  · rw [gc.income]; exact hh.1

/-- net effect of the closing transactions of a year on an account -/
theorem closing_effect {c : Chart} (gc : GoodChart c) {txs : List Tx} {w : WriteOff} (hg : OneIncomeSide c txs)
    (hw : classifyAll c ⟨[], []⟩ txs = .ok w) (src : Str) (date : Int) (p : Str) (h1 : p ≠ c.grossProf) (h2 : p ≠ c.incSum) :
    netCredit p (closingTxs c src date w) =
      (if TradingAcc c p then netCredit p txs else if IncomeAcc c p then - netCredit p txs else 0) +
      (if p = c.retEarn then |netIncome c txs| else 0) := by
  obtain ⟨a1, a2, a3, a4, a5⟩ := classifyAll_spec txs hw (guard_internal gc hg)
  have k1 : ∀ x ∈ w.gross, ∃ q, ref c q = some x.1 := by
    intro x hx; rcases a3 x hx with ⟨_, h, _⟩ | ⟨_, h⟩
    · simp at h
    · exact h
  have k2 : ∀ x ∈ w.inc, ∃ q, ref c q = some x.1 := by
    intro x hx; rcases a4 x hx with ⟨_, h, _⟩ | ⟨_, h⟩
    · simp at h
    · exact h
  have hni : incTotal (grossTotal w.gross) w.inc = netIncome c txs := by
    rw [incTotal_eq, grossTotal_eq, a5]
    simp only [dictSum, incSum, List.map_nil, List.sum_nil, add_zero, zero_add]
    unfold netIncome
    congr 1
    apply List.map_congr_left
    intro t _
    simp only [effect, gc.income]
    rfl
  unfold closingTxs
  simp only [netCredit_append]
  rw [netCredit_gross c src date p h1, netCredit_inc c src date p h2, netCredit_settle c src date _ p h1 h2,
    netCredit_retained c src date _ p h2, hni]
  have hsg : ∀ k, sgn k * sgn k = 1 := by intro k; unfold sgn; split <;> norm_num
  cases hr : ref c p with
  | none =>
    have t1 : TradingAcc c p = false := by rw [gc.trading, hr]
    have t2 : IncomeAcc c p = false := by rw [gc.income, hr]
    rw [pathSum_zero gc _ _ (by simp [hr]) k1, pathSum_zero gc _ _ (by simp [hr]) k2, t1, t2]
    simp
  | some r =>
    have t1 : TradingAcc c p = r.trading := by rw [gc.trading, hr]
    have t2 : IncomeAcc c p = r.income := by rw [gc.income, hr]
    rw [pathSum_eq gc hr _ _ k1, pathSum_eq gc hr _ _ k2, a1, a2, t1, t2, contrib_netCredit gc hr]
    simp only [dictGet, List.map_nil, List.sum_nil, zero_add, one_mul]
    cases hh : r.trading with
    | true => simp
    | false =>
      cases hh2 : r.income with
      | false => simp
      | true =>
        simp only [Bool.not_false, Bool.and_true, if_true, Bool.false_eq_true, if_false]
        have := hsg r
        linear_combination (-netCredit p txs) * this

/-- **C26.** In every year closed during a run, provided no transaction of the year has income statement accounts on
both sides, every revenue or expense account outside sales and cost of sales nets to zero once closed. -/
theorem C26_other_accounts_zero (clk : Clock) (n : Nat) (e e' : Entity) (h : runEntityFor clk n e = .ok e')
    (hc : ReachableChart e.chart) (a b : Int) (hab : (a, b) ∈ yearsClosed clk n 0 (e.prepare (clockAt clk 0) n))
    (hg : OneIncomeSide e.chart (inWindow a b (posted e'.transactions)))
    (p : Str) (hp : IncomeAcc e.chart p = true) (hnt : TradingAcc e.chart p = false)
    (h1 : p ≠ e.chart.grossProf) (h2 : p ≠ e.chart.incSum) (h3 : p ≠ e.chart.retEarn) :
    netCredit p (inWindow a b e'.transactions) = 0 := by
  obtain ⟨w, hw, hs⟩ := closed_year h hab
  rw [hs, netCredit_append, closing_effect (reachable_good hc) hg hw _ _ p h1 h2, hp, hnt]
  simp [h3]

/-- **C27 is false of the code: sales and cost of sales accounts are doubled instead of being zeroed.** In every year
closed during a run their net over the year after closing is twice the net of the year's transactions. -/
theorem C27_trading_accounts_doubled (clk : Clock) (n : Nat) (e e' : Entity) (h : runEntityFor clk n e = .ok e')
    (hc : ReachableChart e.chart) (a b : Int) (hab : (a, b) ∈ yearsClosed clk n 0 (e.prepare (clockAt clk 0) n))
    (hg : OneIncomeSide e.chart (inWindow a b (posted e'.transactions)))
    (p : Str) (hp : TradingAcc e.chart p = true)
    (h1 : p ≠ e.chart.grossProf) (h2 : p ≠ e.chart.incSum) (h3 : p ≠ e.chart.retEarn) :
    netCredit p (inWindow a b e'.transactions) = 2 * netCredit p (inWindow a b (posted e'.transactions)) := by
  obtain ⟨w, hw, hs⟩ := closed_year h hab
  rw [hs, netCredit_append, closing_effect (reachable_good hc) hg hw _ _ p h1 h2, hp]
  simp [h3]; ring

/-- **C28.** In every closed year the retained earnings account is credited with the size of the net income, whatever
its sign. -/
theorem C28_retained_earnings (clk : Clock) (n : Nat) (e e' : Entity) (h : runEntityFor clk n e = .ok e')
    (hc : ReachableChart e.chart) (a b : Int) (hab : (a, b) ∈ yearsClosed clk n 0 (e.prepare (clockAt clk 0) n))
    (hg : OneIncomeSide e.chart (inWindow a b (posted e'.transactions)))
    (h1 : e.chart.retEarn ≠ e.chart.grossProf) (h2 : e.chart.retEarn ≠ e.chart.incSum)
    (h3 : IncomeAcc e.chart e.chart.retEarn = false) :
    netCredit e.chart.retEarn (inWindow a b e'.transactions) =
      netCredit e.chart.retEarn (inWindow a b (posted e'.transactions)) +
        |netIncome e.chart (inWindow a b (posted e'.transactions))| := by
  obtain ⟨w, hw, hs⟩ := closed_year h hab
  have gc := reachable_good hc
  have ht : TradingAcc e.chart e.chart.retEarn = false := by
    rw [gc.trading]
    have := gc.income e.chart.retEarn
    rw [h3] at this
    cases hr : ref e.chart e.chart.retEarn with
    | none => rfl
    | some r =>
      rw [hr] at this
      simp only at this ⊢
      cases hh : r.trading with
      | false => rfl
      | true => rw [trading_income hh] at this; cases this
  rw [hs, netCredit_append, closing_effect gc hg hw _ _ _ h1 h2, h3, ht]
  simp

/-- **C28 (what holds).** A year without loss increases retained earnings by the net income. -/
theorem C28_profit_partial (clk : Clock) (n : Nat) (e e' : Entity) (h : runEntityFor clk n e = .ok e')
    (hc : ReachableChart e.chart) (a b : Int) (hab : (a, b) ∈ yearsClosed clk n 0 (e.prepare (clockAt clk 0) n))
    (hg : OneIncomeSide e.chart (inWindow a b (posted e'.transactions)))
    (h1 : e.chart.retEarn ≠ e.chart.grossProf) (h2 : e.chart.retEarn ≠ e.chart.incSum)
    (h3 : IncomeAcc e.chart e.chart.retEarn = false)
    (hpos : 0 ≤ netIncome e.chart (inWindow a b (posted e'.transactions))) :
    netCredit e.chart.retEarn (inWindow a b e'.transactions) =
      netCredit e.chart.retEarn (inWindow a b (posted e'.transactions)) +
        netIncome e.chart (inWindow a b (posted e'.transactions)) := by
  rw [C28_retained_earnings clk n e e' h hc a b hab hg h1 h2 h3, abs_of_nonneg hpos]

/-! ### Witnesses -/

/-- An entity that only spends. -/
def entLoss : Entity := { Entity.new "L".toList chart0 with components := [{ (Component.new "C".toList none) with
  activities := [newBasic "Spend".toList "Expense/Interest".toList "Bank/Default".toList 10 dtMin dtMax 1 none] }] }

/-- The final ledger of a run, empty if the run fails. -/
def ledgerOf (r : Res Entity) : List Tx := match r with
  | .ok e => e.transactions
  | .error _ => []

/-- the first financial year on `clkM` -/
def y0 : Int := yearStart clkM.start 0
/-- the second financial year on `clkM` -/
def y1 : Int := yearStart clkM.start 1

/-- **C28 is false of the code**: in a year with a loss of 120 retained earnings go up by 120. -/
theorem C28_loss_counterexample :
    (runEntityFor clkM 14 entLoss).isOk = true ∧ (y0, y1) ∈ yearsClosed clkM 14 0 (entLoss.prepare (clockAt clkM 0) 14) ∧
    netIncome chart0 (inWindow y0 y1 (posted (ledgerOf (runEntityFor clkM 14 entLoss)))) = -120 ∧
    netCredit chart0.retEarn (inWindow y0 y1 (ledgerOf (runEntityFor clkM 14 entLoss))) = 120 := by
  refine ⟨by decide +kernel, by decide +kernel, by decide +kernel, by decide +kernel⟩

/-- **C27 counterexample.** Sales of 600 are at 1200 after closing. -/
theorem C27_counterexample :
    (runEntityFor clkM 14 ent0).isOk = true ∧ (y0, y1) ∈ yearsClosed clkM 14 0 (ent0.prepare (clockAt clkM 0) 14) ∧
    netCredit "Sales/Ore".toList (inWindow y0 y1 (posted (ledgerOf (runEntityFor clkM 14 ent0)))) = 600 ∧
    netCredit "Sales/Ore".toList (inWindow y0 y1 (ledgerOf (runEntityFor clkM 14 ent0))) = 1200 := by
  refine ⟨by decide +kernel, by decide +kernel, by decide +kernel, by decide +kernel⟩

/-- The hypotheses of C26–C28 hold of the sample run (interest expense, sales, retained earnings). -/
example : ReachableChart ent0.chart ∧ (y0, y1) ∈ yearsClosed clkM 14 0 (ent0.prepare (clockAt clkM 0) 14) ∧
    OneIncomeSide ent0.chart (inWindow y0 y1 (posted (ledgerOf (runEntityFor clkM 14 ent0)))) ∧
    IncomeAcc ent0.chart "Expense/Interest".toList = true ∧ TradingAcc ent0.chart "Expense/Interest".toList = false ∧
    TradingAcc ent0.chart "Sales/Ore".toList = true ∧ IncomeAcc ent0.chart ent0.chart.retEarn = false ∧
    netCredit "Expense/Interest".toList (inWindow y0 y1 (posted (ledgerOf (runEntityFor clkM 14 ent0)))) ≠ 0 ∧
    netCredit "Expense/Interest".toList (inWindow y0 y1 (ledgerOf (runEntityFor clkM 14 ent0))) = 0 := by
  refine ⟨chart0_reachable, by decide +kernel, ?_, by decide +kernel, by decide +kernel, by decide +kernel, by decide +kernel,
    by decide +kernel, by decide +kernel⟩
  unfold OneIncomeSide
  decide +kernel

/-- An entity that pays interest out of an income account. -/
def entBoth : Entity := { Entity.new "B".toList chart0 with components := [{ (Component.new "C".toList none) with
  activities := [newBasic "X".toList "Expense/Interest".toList "Other Income/Rent".toList 10 dtMin dtMax 1 none] }] }

/-- **C26 needs its guard**: a transaction between two income statement accounts is only half closed. -/
theorem C26_guard_needed :
    (runEntityFor clkM 14 entBoth).isOk = true ∧ (y0, y1) ∈ yearsClosed clkM 14 0 (entBoth.prepare (clockAt clkM 0) 14) ∧
    netCredit "Other Income/Rent".toList (inWindow y0 y1 (ledgerOf (runEntityFor clkM 14 entBoth))) = 0 ∧
    netCredit "Expense/Interest".toList (inWindow y0 y1 (ledgerOf (runEntityFor clkM 14 entBoth))) = -120 := by
  refine ⟨by decide +kernel, by decide +kernel, by decide +kernel, by decide +kernel⟩

/-! ## C37: the procedure can fail -/

/-- An entity that refunds rent it never received in the year. -/
def entRefund : Entity := { Entity.new "R".toList chart0 with components := [{ (Component.new "C".toList none) with
  activities := [newBasic "X".toList "Other Income/Rent".toList "Bank/Default".toList 10 dtMin dtMax 1 none] }] }

/-- **C37 is false of the code**: although all accounts exist, the run stops with a `KeyError` at the first year end. -/
theorem C37_debit_revenue_raises :
    (∀ p ∈ ["Other Income/Rent".toList, "Bank/Default".toList], (accountAt chart0 p).isSome = true) ∧
    (match runEntityFor clkM 14 entRefund with | .error e => some e | .ok _ => none) = some .keyError := by
  constructor <;> decide +kernel

/-- **C37 (what holds).** If all accounts of the year's transactions exist and none of them debits a revenue account
outside sales and cost of sales, classifying the year's transactions succeeds. -/
theorem C37_succeeds_partial (c : Chart) (hc : ReachableChart c) (txs : List Tx) (w : WriteOff)
    (hex : ∀ t ∈ txs, (accountAt c t.cr).isSome = true ∧ (accountAt c t.dt).isSome = true)
    (hrev : ∀ t ∈ txs, ∀ a, accountAt c t.dt = some a → a.accountType = .revenue → TradingAcc c t.dt = true) :
    ∃ w', classifyAll c w txs = .ok w' := by
  have gc := reachable_good hc
  induction txs generalizing w with
  | nil => exact ⟨w, rfl⟩
  | cons t txs ih =>
    have : ∃ w1, classify c w t = .ok w1 := by
      obtain ⟨e1, e2⟩ := hex t (by simp)
      obtain ⟨a, ha⟩ := Option.isSome_iff_exists.1 e1
      obtain ⟨b, hb⟩ := Option.isSome_iff_exists.1 e2
      obtain ⟨pa, pa1, _⟩ := (getRef_spec c.str t.cr).1 a ha
      obtain ⟨pb, pb1, _⟩ := (getRef_spec c.str t.dt).1 b hb
      have hr : ref c t.dt = some ⟨pb, b.path, b.accountType⟩ := by simp [ref, pb1]
      have htr : b.accountType = .revenue → (⟨pb, b.path, b.accountType⟩ : Ref).trading = true := by
        intro hh
        have := hrev t (by simp) b hb hh
        rw [gc.trading, hr] at this
        exact this
      unfold classify
      rw [pa1, pb1]
      simp only [bind, Except.bind, pure, Except.pure, throw, throwThe, MonadExceptOf.throw]
      split
      · exact ⟨_, rfl⟩
      · split
        · exact ⟨_, rfl⟩
        · rename_i hn
          split
          · exact ⟨_, rfl⟩
          · split
            · exact ⟨_, rfl⟩
            · rename_i hn2
              split
              · exact ⟨_, rfl⟩
              · split
                · rename_i hh
                  have := htr hh
                  simp only [Ref.trading, Bool.or_eq_true] at this
                  rcases this with h | h
                  · exact absurd h hn
                  · exact absurd h hn2
                · split
                  · exact ⟨_, rfl⟩
                  · split
                    · exact ⟨_, rfl⟩
                    · exact ⟨_, rfl⟩
    obtain ⟨w1, hw1⟩ := this
    obtain ⟨w2, hw2⟩ := ih w1 (fun t ht => hex t (by simp [ht])) (fun t ht => hrev t (by simp [ht]))
    exact ⟨w2, by simp only [classifyAll, hw1, hw2]⟩

example : (accountAt chart0 "Sales/Ore".toList).isSome = true ∧ TradingAcc chart0 "Sales/Ore".toList = true := by decide +kernel

end Auxi.Business.Props
