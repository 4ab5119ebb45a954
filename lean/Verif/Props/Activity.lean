import Verif.Proofs.Schedule
import Mathlib.Tactic.Linarith
import Mathlib.Tactic.Positivity
import Mathlib.Tactic.IntervalCases
/-! # Properties of single activities: C16–C21, C32, C34–C36 -/
namespace Auxi.Business.Props
open Auxi.Business Spec Time Calendar Ledger

/-! ## Sample objects used to show that hypotheses can be met -/

/-- Monthly clock starting on 2016-02-01. -/
def clkM : Clock := Clock.new (mkDateTime 2016 2 1 0) .month 1
/-- A basic activity for every second period. -/
def actB : Activity := newBasic "Sales".toList "Bank/Default".toList "Sales/Ore".toList 100 dtMin dtMax 2 none
/-- A loan of 1000 at 12 % p.a. over 3 months. -/
def actL : Res Activity := newLoan "Loan".toList "Bank/Default".toList "Long Term Borrowing/Loan".toList
  "Expense/Interest".toList 1000 (12/100) (mkDateTime 2016 2 1 0) 3 1 none

/-- The constructed loan. -/
def actL' : Activity := match actL with
  | .ok a => a
  | .error _ => actB

/-! ## Schedule -/

/-- **C16 (criterion).** An activity posts something in a period exactly when it is due there. -/
theorem C16_executes_iff_due (a : Activity) (clk : Clock) : (a.run clk).2 ≠ [] ↔ Due a clk.ix := by
  rw [← meets_iff]
  unfold Activity.run
  cases h : a.meets clk.ix
  · simp
  · simp only [Bool.true_eq_false, if_false, iff_true]
    cases a.kind with
    | basic => simp
    | loan => simp only; split <;> simp

example : ((newBasic [] [] [] 1 dtMin dtMax 2 none).prepare clkM 4 |>.run (clockAt clkM 1)).2 ≠ [] := by decide

/-- **C16 (window).** What `prepare_to_run` makes of an activity that has not run yet: the start index is the first
period later than the start datetime (0 if there is no start datetime or no such period), the end index is the first
period later than the end datetime, or lies `n` periods after the start if there is none — or if that period happens
to be just before the start index, because -1 doubles as "unknown". -/
theorem C16_window (a : Activity) (clk : Clock) (n : Nat) (h : Fresh a) :
    (∀ i, a.start ≠ dtMin → FirstPeriodAfter clk a.start n i → (a.prepare clk n).startIx = i) ∧
    ((a.start = dtMin ∨ ∀ i, ¬ FirstPeriodAfter clk a.start n i) → (a.prepare clk n).startIx = 0) ∧
    (∀ i, a.stop ≠ dtMax → FirstPeriodAfter clk a.stop n i → (i : Int) ≠ (a.prepare clk n).startIx - 1 →
      (a.prepare clk n).endIx = i) ∧
    ((a.stop = dtMax ∨ (∀ i, ¬ FirstPeriodAfter clk a.stop n i) ∨
      (∃ i, FirstPeriodAfter clk a.stop n i ∧ (i : Int) = (a.prepare clk n).startIx - 1)) →
      (a.prepare clk n).endIx = (a.prepare clk n).startIx + n) := by
  obtain ⟨hs, hc⟩ := h
  have hnone : ∀ t, (∀ i, ¬ FirstPeriodAfter clk t n i) → firstAfter clk t n = none := by
    intro t ht
    cases hf : firstAfter clk t n with
    | none => rfl
    | some i => exact absurd (firstAfter_some hf) (ht i)
  have hsome : ∀ t i, FirstPeriodAfter clk t n i → firstAfter clk t n = some i :=
    fun t i hi => firstAfter_eq hi.1 hi.2.1 hi.2.2
  refine ⟨fun i hne hi => ?_, fun ho => ?_, fun i hne hi hx => ?_, fun ho => ?_⟩
  · simp only [Activity.prepare, Activity.prepStart, hs, hne, ne_eq, not_false_eq_true, and_self, if_true, hsome _ _ hi]
    show (if (i : Int) = -1 then (0 : Int) else i) = i
    split <;> omega
  · simp only [Activity.prepare, Activity.prepStart, hs]
    rcases ho with ho | ho
    · simp [ho]
    · rw [hnone _ ho]; simp
  · simp only [Activity.prepare] at hx ⊢
    simp only [Activity.prepEnd, Activity.prepCount, hc, hne, ne_eq, not_false_eq_true, and_self, if_true, hsome _ _ hi]
    split <;> omega
  · have hp : a.prepCount clk n = -1 := by
      unfold Activity.prepCount
      split
      · rename_i hcond
        rcases ho with ho | ho | ⟨i, hi, hx⟩
        · exact absurd ho hcond.2
        · rw [hnone _ ho]; exact hc
        · rw [hsome _ _ hi]; simp only [Activity.prepare] at hx
          show (i : Int) - a.prepStart clk n = -1
          omega
      · exact hc
    simp [Activity.prepare, Activity.prepEnd, hp]

example : Fresh actB ∧ (actB.prepare clkM 5).startIx = 0 ∧ (actB.prepare clkM 5).endIx = 5 := by decide

/-- **C16 (count).** The number of periods `0..n-1` in which the activity is due is the number of multiples of the
interval in the window. -/
theorem C16_count (a : Activity) (n : Nat) (hk : 0 < a.interval) (h0 : 0 ≤ a.startIx) (ha : Active a) :
    (execsBefore a n : Int) =
      max 0 (min ((a.endIx + 1) / a.interval - 1) (n / a.interval) - (a.startIx + a.interval) / a.interval + 1) := by
  rw [← count_scheduled a hk n h0]
  unfold execsBefore
  congr 2
  apply List.filter_congr
  intro k _
  rw [Bool.eq_iff_iff, decide_eq_true_iff, meetsBase_iff]
  simp [Due, ha]

example : 0 < actB.interval ∧ 0 ≤ (actB.prepare clkM 5).startIx ∧ Active (actB.prepare clkM 5) ∧
    execsBefore (actB.prepare clkM 5) 5 = 2 := by decide

/-- **C32 is false of the code.** An activity without start and end datetime with interval `k` in a run of `n` periods
does not always execute `⌊n/k⌋` times: the last interval is dropped unless one more period follows. -/
theorem C32_last_interval_dropped : ¬ ∀ (a : Activity) (clk : Clock) (n : Nat), Fresh a → 0 < a.interval →
    a.start = dtMin → a.stop = dtMax → Active a → (execsBefore (a.prepare clk n) n : Int) = n / a.interval := by
  intro h
  have := h actB clkM 4 (by decide) (by decide) (by decide) (by decide) (by decide)
  revert this; decide

/-- **C32 (what holds).** It executes `⌊(n+1)/k⌋ - 1` times (at least 0), which is `⌊n/k⌋` exactly when the interval is
1 or `n+1` is a multiple of it or there are less than one interval's periods. -/
theorem C32_count_partial (a : Activity) (clk : Clock) (n : Nat) (hf : Fresh a) (hk : 0 < a.interval)
    (h1 : a.start = dtMin) (h2 : a.stop = dtMax) (ha : Active a) :
    (execsBefore (a.prepare clk n) n : Int) = max 0 (((n : Int) + 1) / a.interval - 1) := by
  obtain ⟨_, w1, _, w2⟩ := C16_window a clk n hf
  have w1 := w1 (.inl h1)
  have w2 := w2 (.inl h2)
  have hi : (a.prepare clk n).interval = a.interval := rfl
  have ha' : Active (a.prepare clk n) := by
    unfold Active at ha ⊢; cases hkk : a.kind <;> simp_all [Activity.prepare, Kind.reset]
  rw [C16_count (a.prepare clk n) n hk (by omega) ha', w2, w1, hi]
  simp only [zero_add]
  rw [Int.ediv_self (by omega)]
  by_cases hd : a.interval ∣ (n : Int) + 1
  · have := (ediv_succ_of_dvd hk hd).1
    omega
  · have := ediv_succ_of_not_dvd hk hd
    omega

/-- **C32 for interval 1.** Every period of the run is used. -/
theorem C32_every_period (a : Activity) (clk : Clock) (n : Nat) (hf : Fresh a) (hk : a.interval = 1)
    (h1 : a.start = dtMin) (h2 : a.stop = dtMax) (ha : Active a) : execsBefore (a.prepare clk n) n = n := by
  have := C32_count_partial a clk n hf (by omega) h1 h2 ha
  rw [hk] at this
  omega

example : Fresh (newBasic [] [] [] 1 dtMin dtMax 1 none) ∧ Active (newBasic [] [] [] 1 dtMin dtMax 1 none) := by decide

/-- **C17 is false of the code.** An activity that starts after every period of the run is executed from period 0. -/
theorem C17_start_beyond_horizon_runs : ¬ ∀ (a : Activity) (clk : Clock) (n i : Nat), Fresh a → i < n →
    (∀ j : Nat, j < n → clk.atIx j < a.start) → ((a.prepare clk n).run (clockAt clk i)).2 = [] := by
  intro h
  have := h (newBasic [] [] [] 1 (mkDateTime 2030 1 1 0) dtMax 1 none) clkM 3 0 (by decide) (by decide)
    (by intro j hj; interval_cases j <;> decide)
  revert this; decide

/-- **C17 (what holds).** If some period of the run is later than the start datetime, the activity executes only in
periods later than its start datetime. -/
theorem C17_not_before_start_partial (a : Activity) (clk : Clock) (n i : Nat) (hf : Fresh a) (hne : a.start ≠ dtMin)
    (hlate : ∃ j : Nat, j < n ∧ a.start < clk.atIx j)
    (hx : ((a.prepare clk n).run (clockAt clk i)).2 ≠ []) : a.start < clk.atIx i := by
  rw [C16_executes_iff_due] at hx
  obtain ⟨⟨_, h2, _⟩, _⟩ := hx
  cases hfa : firstAfter clk a.start n with
  | none =>
    obtain ⟨j, hj, hl⟩ := hlate
    have := firstAfter_none.1 hfa j hj
    omega
  | some k =>
    obtain ⟨k1, k2, k3⟩ := firstAfter_some hfa
    have := (C16_window a clk n hf).1 k hne ⟨k1, k2, k3⟩
    rw [this] at h2
    have hle : (k : Int) ≤ (i : Int) := h2
    exact lt_of_lt_of_le k2 (atIx_le clk hle)

example : ∃ a : Activity, Fresh a ∧ a.start ≠ dtMin ∧ a.start < clkM.atIx 2 ∧
    ((a.prepare clkM 4).run (clockAt clkM 3)).2 ≠ [] :=
  ⟨newBasic [] [] [] 1 (mkDateTime 2016 3 1 0) dtMax 1 none, by decide, by decide, by decide, by decide⟩

/-- **C35 is false of the code** for an activity whose end precedes its start by one period: it executes after its end
datetime. -/
theorem C35_sentinel_counterexample : ¬ ∀ (a : Activity) (clk : Clock) (n i : Nat), Fresh a → 0 < a.interval → i < n →
    ((a.prepare clk n).run (clockAt clk i)).2 ≠ [] → clk.atIx i ≤ a.stop := by
  intro h
  have := h (newBasic [] [] [] 1 (mkDateTime 2016 3 15 0) (mkDateTime 2016 2 15 0) 1 none) clkM 6 4 (by decide) (by decide)
    (by decide) (by decide)
  revert this; decide

/-- **C35 is false of the code** for interval 0, which executes in the first period after its end datetime. -/
theorem C35_interval_zero_counterexample : ¬ ∀ (a : Activity) (clk : Clock) (n i : Nat), Fresh a → a.start ≤ a.stop →
    i < n → ((a.prepare clk n).run (clockAt clk i)).2 ≠ [] → clk.atIx i ≤ a.stop := by
  intro h
  have := h (newBasic [] [] [] 1 dtMin (mkDateTime 2016 3 15 0) 0 none) clkM 6 2 (by decide) (by decide)
    (by decide) (by decide)
  revert this; decide

/-- **C35 (what holds).** With a positive interval and an end not before the start, no execution is later than the end
datetime. -/
theorem C35_not_after_end_partial (a : Activity) (clk : Clock) (n i : Nat) (hf : Fresh a) (hk : 0 < a.interval)
    (hse : a.start ≤ a.stop) (hmax : clk.atIx n ≤ dtMax) (hi : i < n)
    (hx : ((a.prepare clk n).run (clockAt clk i)).2 ≠ []) : clk.atIx i ≤ a.stop := by
  rw [C16_executes_iff_due] at hx
  obtain ⟨⟨_, _, h3⟩, _⟩ := hx
  have h3 : (i : Int) + a.interval ≤ (a.prepare clk n).endIx := h3
  by_cases hst : a.stop = dtMax
  · rw [hst]; exact le_trans (atIx_le clk (by omega)) hmax
  · cases hfa : firstAfter clk a.stop n with
    | none => exact firstAfter_none.1 hfa i hi
    | some k =>
      obtain ⟨k1, k2, k3⟩ := firstAfter_some hfa
      have hne : (k : Int) ≠ (a.prepare clk n).startIx - 1 := by
        intro hEq
        cases hfs : firstAfter clk a.start n with
        | none => have := firstAfter_none.1 hfs k k1; omega
        | some s =>
          obtain ⟨s1, s2, s3⟩ := firstAfter_some hfs
          by_cases hmin : a.start = dtMin
          · have := (C16_window a clk n hf).2.1 (.inl hmin); omega
          · have hs := (C16_window a clk n hf).1 s hmin ⟨s1, s2, s3⟩
            have : k < s := by omega
            have := s3 k this
            omega
      have := (C16_window a clk n hf).2.2.1 k hst ⟨k1, k2, k3⟩ hne
      rw [this] at h3
      exact k3 i (by omega)

example : ∃ a : Activity, Fresh a ∧ 0 < a.interval ∧ a.start ≤ a.stop ∧ clkM.atIx 6 ≤ dtMax ∧
    ((a.prepare clkM 6).run (clockAt clkM 2)).2 ≠ [] ∧ ((a.prepare clkM 6).run (clockAt clkM 3)).2 = [] :=
  ⟨newBasic [] [] [] 1 dtMin (mkDateTime 2016 4 15 0) 1 none, by decide, by decide, by decide, by decide, by decide, by decide⟩

/-- **C34 is false of the code.** The window worked out for the first run is kept: a later run with another horizon
(or clock) does not execute as the same activity would when run for the first time. -/
theorem C34_stale_schedule : ¬ ∀ (a : Activity) (clk : Clock) (n n' : Nat), Fresh a →
    (((a.prepare clk n).prepare clk n').startIx, ((a.prepare clk n).prepare clk n').endIx) =
      ((a.prepare clk n').startIx, (a.prepare clk n').endIx) := by
  intro h
  have := h (newBasic [] [] [] 1 (mkDateTime 2016 4 15 0) dtMax 1 none) clkM 2 12 (by decide)
  revert this; decide

/-- **C34 (what holds).** With the same clock and horizon, preparing again changes nothing, also after a run. -/
theorem C34_same_horizon_partial (a : Activity) (clk c : Clock) (n : Nat) :
    (a.prepare clk n).prepare clk n = a.prepare clk n ∧ ((a.prepare clk n).run c).1.prepare clk n = a.prepare clk n :=
  ⟨prepare_idem clk n a, by rw [run_prepare, prepare_idem]⟩

/-! ## Basic activities -/

/-- **C18 (one period).** -/
theorem C18_basic_run (a : Activity) (clk : Clock) (amount : ℚ) (dt cr : Str) (hk : a.kind = .basic amount dt cr) :
    (Scheduled a clk.ix ∧ 0 < amount → a.run clk = (a, [
      { name := a.description.getD a.name, description := some [], date := clk.now, dt := dt, cr := cr,
        source := a.path, amount := amount }])) ∧
    (¬ (Scheduled a clk.ix ∧ 0 < amount) → a.run clk = (a, [])) := by
  have hd : Due a clk.ix ↔ Scheduled a clk.ix ∧ 0 < amount := by simp [Due, Active, hk]
  rw [← hd, ← meets_iff]
  unfold Activity.run
  constructor
  · intro h; simp [h, hk, Activity.txName]
  · intro h; simp [h]

theorem stateAt_zero {a : Activity} (h : ∀ b l t am r p d m lf, a.kind = .loan b l t am r p d m lf → m = 0 ∧ lf = am) :
    stateAt 0 a = a := by
  obtain ⟨⟩ := a
  rename_i k
  cases k with
  | basic => rfl
  | loan b l t am r p d m lf =>
    obtain ⟨rfl, rfl⟩ := h b l t am r p d m lf rfl
    simp [stateAt, execsBefore_zero, outstanding]

theorem runFor_eq (clk : Clock) (a : Activity) (n : Nat) (h0 : stateAt 0 a = a)
    (hl : ∀ b l t am r p d m lf, a.kind = .loan b l t am r p d m lf → a.interval ≠ 0) :
    runFor clk a n = (stateAt n a, (List.range n).flatMap (fun i => txsAt clk a i)) := by
  induction n with
  | zero => simp [runFor, h0]
  | succ n ih =>
    simp only [runFor, ih, activity_run clk n a hl, List.range_succ, List.flatMap_append, List.flatMap_cons,
      List.flatMap_nil, List.append_nil]

/-- **C18 (whole run).** Over periods `0..n-1` the activity posts one transaction per due period, dated by the period,
and the total is the amount times the number of executions. -/
theorem C18_basic_total (a : Activity) (clk : Clock) (n : Nat) (amount : ℚ) (dt cr : Str)
    (hk : a.kind = .basic amount dt cr) :
    (runFor clk a n).2.length = execsBefore a n ∧
    (runFor clk a n).2.map Tx.date = ((List.range n).filter (fun i => Due a i)).map (fun i : Nat => clk.atIx i) ∧
    (∀ t ∈ (runFor clk a n).2, t.dt = dt ∧ t.cr = cr ∧ t.amount = amount ∧ t.source = a.path) ∧
    ((runFor clk a n).2.map Tx.amount).sum = amount * execsBefore a n := by
  have key : (runFor clk a n).2 = ((List.range n).filter (fun i => Due a i)).map (fun i =>
      { name := a.description.getD a.name, description := some [], date := clk.atIx i, dt := dt, cr := cr,
        source := a.path, amount := amount }) := by
    rw [runFor_eq clk a n (stateAt_zero (by simp [hk])) (by simp [hk])]
    simp only
    generalize List.range n = l
    induction l with
    | nil => rfl
    | cons i l ih =>
      rw [List.flatMap_cons, ih]
      by_cases h : Due a i
      · simp [txsAt, h, hk]
      · simp [txsAt, h]
  refine ⟨by simp [key, execsBefore], by simp [key, Function.comp_def], ?_, ?_⟩
  · intro t ht
    rw [key] at ht
    simp only [List.mem_map] at ht
    obtain ⟨i, _, rfl⟩ := ht
    exact ⟨rfl, rfl, rfl, rfl⟩
  · rw [key, List.map_map]
    unfold execsBefore
    generalize (List.range n).filter (fun i => decide (Due a i)) = l
    induction l with
    | nil => simp
    | cons i l ih => rw [List.map_cons, List.sum_cons, List.length_cons, ih]; push_cast; simp only [Function.comp_def]; ring

example : (runFor clkM (actB.prepare clkM 7) 7).2.map Tx.amount = [100, 100, 100] := by decide +kernel

/-! ## Loans -/

/-- **C19 is false of the code for interval 0**: the loan is paid out again in every period while the outstanding
amount stays at the loan's amount. -/
theorem C19_interval_zero_counterexample : ¬ ∀ (a : Activity) (clk : Clock) (n : Nat) (b l t : Str) (am r p : ℚ)
    (d m : Int) (lf : ℚ), a.kind = .loan b l t am r p d 0 am → b ≠ l → t ≠ l → 0 < execsBefore a n →
    (runFor clk a n).1.kind = .loan b l t am r p d m lf → netCredit l (runFor clk a n).2 = lf := by
  intro h
  have := h ⟨[], none, [], [], 0, 0, 0, 0, 5, 5, .loan ['b'] ['l'] ['t'] 1000 (12/100) 100 3 0 1000⟩ clkM 2 ['b'] ['l'] ['t']
    1000 (12/100) 100 3 0 1000 rfl (by decide) (by decide) (by decide) (by decide +kernel)
  revert this; decide +kernel

/-- **C19.** After any number of periods, once the loan has been paid out, the credits less debits of the loan account
are the outstanding amount the activity holds, and cash received plus interest equals repayments plus outstanding
amount. -/
theorem C19_loan_balance (a : Activity) (clk : Clock) (n : Nat) (b l t : Str) (am r p : ℚ) (d : Int)
    (hk : a.kind = .loan b l t am r p d 0 am) (hint : a.interval ≠ 0) (hbl : b ≠ l) (htl : t ≠ l) (hbt : b ≠ t)
    (hex : 0 < execsBefore a n) :
    ∃ m lf, (runFor clk a n).1.kind = .loan b l t am r p d m lf ∧ netCredit l (runFor clk a n).2 = lf ∧
      debits b (runFor clk a n).2 + debits t (runFor clk a n).2 = credits b (runFor clk a n).2 + lf ∧
      debits b (runFor clk a n).2 = am := by
  have hl0 : ∀ b l t am r p d m lf, a.kind = .loan b l t am r p d m lf → m = 0 ∧ lf = am := by
    intro b l t am r p d m lf h; rw [hk] at h; simp only [Kind.loan.injEq] at h; exact ⟨by simp [h], by rw [← h.2.2.2.1]; exact h.2.2.2.2.2.2.2.2.symm⟩
  have hlint : ∀ b l t am r p d m lf, a.kind = .loan b l t am r p d m lf → a.interval ≠ 0 := fun _ _ _ _ _ _ _ _ _ _ => hint
  rw [runFor_eq clk a n (stateAt_zero hl0) hlint]
  refine ⟨execsBefore a n * a.interval, outstanding am r p (execsBefore a n - 1), by simp [stateAt, hk], ?_⟩
  have key : ∀ n, (execsBefore a n = 0 → (List.range n).flatMap (fun i => txsAt clk a i) = []) ∧
      (0 < execsBefore a n →
        netCredit l ((List.range n).flatMap (fun i => txsAt clk a i)) = outstanding am r p (execsBefore a n - 1) ∧
        debits b ((List.range n).flatMap (fun i => txsAt clk a i)) = am ∧
        debits b ((List.range n).flatMap (fun i => txsAt clk a i)) + debits t ((List.range n).flatMap (fun i => txsAt clk a i))
          = credits b ((List.range n).flatMap (fun i => txsAt clk a i)) + outstanding am r p (execsBefore a n - 1)) := by
    intro n
    induction n with
    | zero => simp [execsBefore_zero]
    | succ n ih =>
      obtain ⟨ih0, ih1⟩ := ih
      have hs := execsBefore_succ a n
      rw [List.range_succ, List.flatMap_append]
      have hdu := due_meets a n
      cases hm : a.meets n with
      | false =>
        rw [hm, decide_eq_false_iff_not] at hdu
        simp only [hm, Bool.false_eq_true, if_false, Nat.add_zero] at hs
        have ht : txsAt clk a n = [] := by simp [txsAt, hdu]
        simp only [List.flatMap_cons, List.flatMap_nil, List.append_nil, ht, hs]
        exact ⟨ih0, ih1⟩
      | true =>
        rw [hm, decide_eq_true_iff] at hdu
        simp only [hm, if_true] at hs
        refine ⟨by omega, fun _ => ?_⟩
        generalize hT : (List.range n).flatMap (fun i => txsAt clk a i) = T at ih0 ih1
        simp only [List.flatMap_cons, List.flatMap_nil, List.append_nil]
        cases hj : execsBefore a n with
        | zero =>
          rw [ih0 hj, hs, hj]
          simp [txsAt, hdu, hk, hj, netCredit, debits, credits, hbl, outstanding, hbt, hbl.symm]
        | succ j =>
          obtain ⟨i1, i2, i3⟩ := ih1 (by omega)
          rw [hs, hj]
          simp only [hj, Nat.add_sub_cancel] at i1 i2 i3
          have e1 : netCredit l (T ++ txsAt clk a n) = netCredit l T + outstanding am r p j * r / 12 - p := by
            simp only [txsAt, hdu, hk, hj, if_true, netCredit, List.map_append, List.sum_append, List.map_cons, List.map_nil,
              List.sum_cons, List.sum_nil, hbl, htl, if_false]
            ring
          have e2 : debits b (T ++ txsAt clk a n) = debits b T := by
            simp [txsAt, hdu, hk, hj, debits, hbl.symm, hbt.symm]
          have e3 : debits t (T ++ txsAt clk a n) = debits t T + outstanding am r p j * r / 12 := by
            simp [txsAt, hdu, hk, hj, debits, htl.symm]
          have e4 : credits b (T ++ txsAt clk a n) = credits b T + p := by
            simp [txsAt, hdu, hk, hj, credits, hbl.symm]
          rw [e1, e2, e3, e4]
          simp only [Nat.add_sub_cancel, outstanding]
          refine ⟨by linear_combination i1, i2, by linear_combination i3⟩
  obtain ⟨k1, k2, k3⟩ := (key n).2 hex
  exact ⟨k1, k3, k2⟩

example : ∃ a, actL = .ok a ∧ a.interval ≠ 0 ∧ 0 < execsBefore (a.prepare clkM 4) 4 ∧
    netCredit "Long Term Borrowing/Loan".toList (runFor clkM (a.prepare clkM 4) 4).2 =
      outstanding 1000 (12/100) (1000 * (1/100) / (1 - 1 / (101/100)^3)) 2 := by
  refine ⟨actL', by decide +kernel, by decide +kernel, by decide +kernel, by decide +kernel⟩

theorem pow_gt_one {r : ℚ} (hr : 0 < r) {d : Nat} (hd : 0 < d) : 1 < (1 + r) ^ d :=
  one_lt_pow₀ (by linarith) (by omega)

/-- **C20 (amortisation).** For a constructed loan with positive rate, amount and duration: after all instalments
nothing is left, before that a positive amount is left, and every instalment reduces it. -/
theorem C20_repaid (name b l t : Str) (am rate : ℚ) (start interval : Int) (d : Nat) (descr : Option Str) (a : Activity)
    (h : newLoan name b l t am rate start d interval descr = .ok a) (hr : 0 < rate) (ha : 0 < am) (hd : 0 < d) :
    ∃ p, a.kind = .loan b l t am rate p d 0 am ∧ outstanding am rate p d = 0 ∧
      (∀ j, j < d → 0 < outstanding am rate p j) ∧
      (∀ j, outstanding am rate p (j + 1) < outstanding am rate p j) := by
  have hr' : 0 < rate / 12 := by positivity
  have hg := pow_gt_one hr' hd
  unfold newLoan monthlyPayment at h
  simp only [zpow_natCast] at h
  have h1 : ¬ 1 + rate / 12 = 0 := by linarith
  have hpos : 0 < (1 + rate / 12) ^ d := by positivity
  have h2 : ¬ 1 - 1 / (1 + rate / 12) ^ d = 0 := by
    have : 1 / (1 + rate / 12) ^ d < 1 := by rw [div_lt_one hpos]; exact hg
    linarith
  rw [if_neg h1, if_neg h2] at h
  simp only [Except.ok.injEq] at h
  subst h
  refine ⟨_, rfl, ?_⟩
  have hc := fun j => outstanding_closed (A := am) (rate := rate) (n := d) hr'.ne' hg.ne' h1 rfl j
  have hden : 0 < (1 + rate / 12) ^ d - 1 := by linarith
  refine ⟨by rw [hc]; simp, fun j hj => ?_, fun j => ?_⟩
  · rw [hc]
    have : (1 + rate / 12) ^ j < (1 + rate / 12) ^ d := pow_lt_pow_right₀ (by linarith) hj
    apply div_pos _ hden
    exact mul_pos ha (by linarith)
  · rw [hc, hc]
    have : (1 + rate / 12) ^ j < (1 + rate / 12) ^ (j + 1) := pow_lt_pow_right₀ (by linarith) (by omega)
    apply div_lt_div_of_pos_right _ hden
    exact mul_lt_mul_of_pos_left (by linarith) ha

example : ∃ a, actL = .ok a := ⟨actL', by decide +kernel⟩

/-- **C20 (whole run).** On a monthly clock that starts on the loan's start date, a run of at least `duration + 2`
periods pays the loan out, repays it completely and posts nothing afterwards: the loan account is back at zero. -/
theorem C20_run (name b l t : Str) (am rate : ℚ) (d : Nat) (descr : Option Str) (a : Activity) (clk : Clock) (n : Nat)
    (h : newLoan name b l t am rate clk.start d 1 descr = .ok a) (hr : 0 < rate) (ha : 0 < am) (hd : 0 < d)
    (hm : clk.duration = .month) (hs : clk.start ≠ dtMin) (hmax : addMonths clk.start (d + 1) ≠ dtMax) (hn : d + 2 ≤ n)
    (hbl : b ≠ l) (htl : t ≠ l) (hbt : b ≠ t) :
    execsBefore (a.prepare clk n) n = d + 1 ∧
    netCredit l (runFor clk (a.prepare clk n) n).2 = 0 ∧
    debits b (runFor clk (a.prepare clk n) n).2 = am := by
  obtain ⟨p, hk, hz, hpos, _⟩ := C20_repaid name b l t am rate clk.start 1 d descr a h hr ha hd
  have hst : a.start = clk.start ∧ a.stop = addMonths clk.start (d + 1) ∧ a.interval = 1 ∧ Fresh a := by
    unfold newLoan at h
    split at h
    · simp at h
    · simp only [Except.ok.injEq] at h; subst h; exact ⟨rfl, rfl, rfl, rfl, rfl⟩
  obtain ⟨e1, e2, e3, hf⟩ := hst
  have hat : ∀ i : Int, clk.atIx i = addMonths clk.start i := by intro i; simp [Clock.atIx, hm]
  have ha0 := addMonths_zero clk.start
  have hlt : ∀ i j : Int, i < j → addMonths clk.start i < addMonths clk.start j := fun i j => addMonths_strictMono clk.start
  have hle : ∀ i j : Int, i ≤ j → addMonths clk.start i ≤ addMonths clk.start j := by
    intro i j hij
    rcases eq_or_lt_of_le hij with h | h
    · rw [h]
    · exact (hlt _ _ h).le
  obtain ⟨w1, _, w3, w4⟩ := C16_window a clk n hf
  have hS : (a.prepare clk n).startIx = 1 := by
    refine w1 1 (by rw [e1]; exact hs) ⟨by omega, ?_, ?_⟩
    · rw [hat, e1]; conv_lhs => rw [← ha0]
      exact hlt _ _ (by norm_num)
    · intro j hj
      have : j = 0 := by omega
      subst this
      rw [hat, e1]; simp only [Nat.cast_zero]; rw [ha0]
  have hE : min ((a.prepare clk n).endIx) (n : Int) = if n = d + 2 then (n : Int) else d + 2 := by
    by_cases hn' : n = d + 2
    · have : (a.prepare clk n).endIx = (a.prepare clk n).startIx + n := by
        refine w4 (.inr (.inl ?_))
        rintro i ⟨i1, i2, _⟩
        rw [hat, e2] at i2
        have := hle i (d + 1) (by omega)
        omega
      rw [this, hS, if_pos hn']; omega
    · have : (a.prepare clk n).endIx = ((d + 2 : Nat) : Int) := by
        refine w3 (d + 2) (by rw [e2]; exact hmax) ⟨by omega, ?_, ?_⟩ (by rw [hS]; omega)
        · rw [hat, e2]; exact hlt _ _ (by omega)
        · intro j hj; rw [hat, e2]; exact hle _ _ (by omega)
      rw [this, if_neg hn']; omega
  have hact : Active (a.prepare clk n) := by
    simp [Active, Activity.prepare, hk, Kind.reset, ha, hd]
  have hi : (a.prepare clk n).interval = 1 := e3
  have hcount := C16_count (a.prepare clk n) n (by omega) (by omega) hact
  rw [hi, hS] at hcount
  simp only [Int.ediv_one] at hcount
  have hex : execsBefore (a.prepare clk n) n = d + 1 := by
    by_cases hn' : n = d + 2
    · rw [if_pos hn'] at hE; omega
    · rw [if_neg hn'] at hE; omega
  have hkp : (a.prepare clk n).kind = .loan b l t am rate p d 0 am := by simp [Activity.prepare, hk, Kind.reset]
  obtain ⟨m, lf, f1, f2, f3, f4⟩ := C19_loan_balance (a.prepare clk n) clk n b l t am rate p d hkp (by omega) hbl htl hbt (by omega)
  refine ⟨hex, ?_, f4⟩
  rw [f2]
  have hl0 : ∀ b l t am r p d m lf, (a.prepare clk n).kind = .loan b l t am r p d m lf → m = 0 ∧ lf = am := by
    intro b l t am r p d m lf h; rw [hkp] at h; simp only [Kind.loan.injEq] at h
    exact ⟨by simp [h], by rw [← h.2.2.2.1]; exact h.2.2.2.2.2.2.2.2.symm⟩
  rw [runFor_eq clk _ n (stateAt_zero hl0) (fun _ _ _ _ _ _ _ _ _ _ => by omega)] at f1
  simp only [stateAt, hkp, Kind.loan.injEq, true_and] at f1
  rw [← f1.2, hex]; simpa using hz

example : ∃ a, actL = .ok a ∧ clkM.duration = .month ∧ clkM.start ≠ dtMin ∧ addMonths clkM.start (3 + 1) ≠ dtMax ∧
    netCredit "Long Term Borrowing/Loan".toList (runFor clkM (a.prepare clkM 9) 9).2 = 0 := by
  refine ⟨actL', by decide +kernel, rfl, by decide, by decide, by decide +kernel⟩

/-- **C36.** A loan created without a start datetime never executes: its end, `duration + 1` months after the year 1,
precedes every run. -/
theorem C36_default_start_never_executes (name b l t : Str) (am rate : ℚ) (d interval : Int) (descr : Option Str)
    (a : Activity) (clk : Clock) (n : Nat) (h : newLoan name b l t am rate dtMin d interval descr = .ok a)
    (hi : 0 < interval) (hmax : addMonths dtMin (d + 1) ≠ dtMax) (hc : addMonths dtMin (d + 1) < clk.start) :
    (runFor clk (a.prepare clk n) n).2 = [] := by
  have hst : a.start = dtMin ∧ a.stop = addMonths dtMin (d + 1) ∧ a.interval = interval ∧ Fresh a ∧ ∃ p, a.kind = .loan b l t am rate p d 0 am := by
    unfold newLoan at h
    split at h
    · simp at h
    · simp only [Except.ok.injEq] at h; subst h; exact ⟨rfl, rfl, rfl, ⟨rfl, rfl⟩, _, rfl⟩
  obtain ⟨e1, e2, e3, hf, p, hk⟩ := hst
  by_cases hn : n = 0
  · subst hn; rfl
  have hkp : (a.prepare clk n).kind = .loan b l t am rate p d 0 am := by simp [Activity.prepare, hk, Kind.reset]
  have hl0 : ∀ b l t am r p d m lf, (a.prepare clk n).kind = .loan b l t am r p d m lf → m = 0 ∧ lf = am := by
    intro b l t am r p d m lf h; rw [hkp] at h; simp only [Kind.loan.injEq] at h
    exact ⟨by simp [h], by rw [← h.2.2.2.1]; exact h.2.2.2.2.2.2.2.2.symm⟩
  have hip : (a.prepare clk n).interval = interval := e3
  rw [runFor_eq clk _ n (stateAt_zero hl0) (fun _ _ _ _ _ _ _ _ _ _ => by omega)]
  simp only [List.flatMap_eq_nil_iff]
  intro i _
  have hz : clk.atIx 0 = clk.start := by
    unfold Clock.atIx; cases clk.duration <;> simp [addMonths_zero, addYears_eq]
  obtain ⟨_, w2, w3, _⟩ := C16_window a clk n hf
  have hS := w2 (.inl e1)
  have hE := w3 0 (by rw [e2]; exact hmax) ⟨by omega, by rw [e2]; simp only [Nat.cast_zero]; rw [hz]; exact hc, by omega⟩ (by omega)
  have : ¬ Due (a.prepare clk n) i := by
    rintro ⟨⟨_, _, h3⟩, _⟩
    rw [hE, hip] at h3
    omega
  simp [txsAt, this]

example : (∃ a, newLoan [] [] [] [] 1000 (1/10) dtMin 60 1 none = .ok a) ∧ addMonths dtMin (60 + 1) ≠ dtMax ∧
    addMonths dtMin (60 + 1) < clkM.start := by
  refine ⟨?_, by decide, by decide⟩
  have h : (newLoan [] [] [] [] 1000 (1/10) dtMin 60 1 none).isOk = true := by decide +kernel
  cases hh : newLoan [] [] [] [] 1000 (1/10) dtMin 60 1 none with
  | error e => rw [hh] at h; cases h
  | ok a => exact ⟨a, rfl⟩

/-- **C21 is false of the code**: with the default interest rate 0 construction always fails. -/
theorem C21_zero_rate_raises (name b l t : Str) (am : ℚ) (start d interval : Int) (descr : Option Str) :
    newLoan name b l t am 0 start d interval descr = .error .zeroDivisionError := by
  simp [newLoan, monthlyPayment]

/-- **C21 (what holds).** Construction succeeds exactly when the payment formula has no zero denominator; in
particular for every positive rate and nonzero duration. -/
theorem C21_constructible_partial (name b l t : Str) (am rate : ℚ) (start d interval : Int) (descr : Option Str) :
    ((∃ a, newLoan name b l t am rate start d interval descr = .ok a) ↔ 1 + rate / 12 ≠ 0 ∧ (1 + rate / 12) ^ d ≠ 1) ∧
    (0 < rate → d ≠ 0 → ∃ a, newLoan name b l t am rate start d interval descr = .ok a) := by
  have key : (∃ a, newLoan name b l t am rate start d interval descr = .ok a) ↔ 1 + rate / 12 ≠ 0 ∧ (1 + rate / 12) ^ d ≠ 1 := by
    unfold newLoan monthlyPayment
    simp only
    by_cases h1 : 1 + rate / 12 = 0
    · simp [h1]
    · rw [if_neg h1]
      by_cases h2 : 1 - 1 / (1 + rate / 12) ^ d = 0
      · rw [if_pos h2]
        have : (1 + rate / 12) ^ d = 1 := by
          have h3 : 1 / (1 + rate / 12) ^ d = 1 := by linarith
          rw [one_div, inv_eq_one] at h3; exact h3
        simp [this]
      · rw [if_neg h2]
        refine ⟨fun _ => ⟨h1, fun h3 => h2 (by rw [h3]; simp)⟩, fun _ => ⟨_, rfl⟩⟩
  refine ⟨key, fun hr hd => key.2 ⟨by positivity, ?_⟩⟩
  intro h
  have h1 : (1 : ℚ) < 1 + rate / 12 := by have : 0 < rate / 12 := by positivity
                                          linarith
  rcases lt_or_gt_of_ne hd with hlt | hgt
  · have := zpow_lt_zpow_right₀ h1 hlt; simp [h] at this
  · have := zpow_lt_zpow_right₀ h1 hgt; simp [h] at this

end Auxi.Business.Props
