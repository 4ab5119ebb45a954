import Verif.Proofs.Calendar
import Verif.Spec.Clock
/-! # Properties C01, C02: the clock -/
namespace Auxi.Time.Props
open Auxi.Time Auxi.Time.Spec Calendar

/-- The calendar underlying `IsDate` is a calendar: the count of days before a year or month grows by exactly the
length of the year or month, every instant is exactly one date. -/
theorem C01_calendar_sound :
    (∀ y, daysBeforeYear (y + 1) = daysBeforeYear y + (if isLeap y then 366 else 365)) ∧ daysBeforeYear 1 = 0 ∧
    (∀ y, daysBeforeMonth y 1 = 0) ∧
    (∀ y m, 1 ≤ m → m ≤ 11 → daysBeforeMonth y (m + 1) = daysBeforeMonth y m + dim y m) ∧
    (∀ t, ∃ y m d us, IsDate t y m d us) ∧
    (∀ t y m d us y' m' d' us', IsDate t y m d us → IsDate t y' m' d' us' → y = y' ∧ m = m' ∧ d = d' ∧ us = us') := by
  refine ⟨fun y => ?_, by decide, fun y => by simp [daysBeforeMonth], fun y m h1 h2 => month_adjacent ⟨h1, h2⟩, fun t => ?_, ?_⟩
  · rw [year_length]; split <;> omega
  · obtain ⟨⟨h1, h2, h3, h4, h5, h6⟩, he⟩ := fields_valid t
    exact ⟨year t, month t, day t, timeOfDay t, h1, h2, h3, h4, h5, h6, he.symm⟩
  · rintro t y m d us y' m' d' us' ⟨h1, h2, h3, h4, h5, h6, he⟩ ⟨h1', h2', h3', h4', h5', h6', he'⟩
    have a := fields_mk (y := y) (m := m) (d := d) (us := us) ⟨h1, h2, h3, h4, h5, h6⟩
    have b := fields_mk (y := y') (m := m') (d := d') (us := us') ⟨h1', h2', h3', h4', h5', h6'⟩
    have e : mkDateTime y m d us = t := he.symm
    have e' : mkDateTime y' m' d' us' = t := he'.symm
    rw [e] at a; rw [e'] at b
    exact ⟨a.1.symm.trans b.1, a.2.1.symm.trans b.2.1, a.2.2.1.symm.trans b.2.2.1, a.2.2.2.symm.trans b.2.2.2⟩

/-- **C01 (history).** After any history of ticks and resets the clock shows the datetime of the period whose index
is the number of ticks since the last reset, computed from the start datetime. -/
theorem C01_history (s : Int) (D : TimePeriod) (k : Nat) (ops : List ClockOp) :
    (ops.foldl ClockOp.apply (Clock.new s D k)).now = (Clock.new s D k).atIx (ticksSinceReset ops) := by
  have : ∀ ops : List ClockOp, ops.foldl ClockOp.apply (Clock.new s D k) = { Clock.new s D k with ix := ticksSinceReset ops } := by
    intro ops
    rw [← List.reverse_reverse ops]
    generalize ops.reverse = r
    induction r with
    | nil => rfl
    | cons o r ih =>
      rw [List.reverse_cons, List.foldl_append, ih]
      cases o <;> simp [ClockOp.apply, Clock.tick, Clock.reset, ticksSinceReset]
  rw [this]; rfl

/-- **C01 (fixed length periods).** `n` periods after the start exactly `n` period lengths have elapsed. -/
theorem C01_fixed (c : Clock) (len n : Int) (h : fixedLength c.duration = some len) :
    c.atIx n = c.start + n * len := by
  unfold Clock.atIx
  cases hd : c.duration <;> simp only [hd, fixedLength] at h <;> simp only [Option.some.injEq, reduceCtorEq] at h <;>
    subst h <;> simp only [dayUs] <;> omega

/-- **C01 (months).** The calendar month moves by exactly `n`, the day is the start's day or the last of the month
if the month is shorter, the time of day stays. -/
theorem C01_month (c : Clock) (h : c.duration = .month) (y m d us n : Int) (hs : IsDate c.start y m d us) :
    ∃ y' m', IsDate (c.atIx n) y' m' (min d (dim y' m')) us ∧ y' * 12 + m' = y * 12 + m + n := by
  obtain ⟨h1, h2, h3, h4, h5, h6, he⟩ := hs
  have hf := fields_mk (y := y) (m := m) (d := d) (us := us) ⟨h1, h2, h3, h4, h5, h6⟩
  have e : mkDateTime y m d us = c.start := he.symm
  rw [e] at hf
  have hv := addMonths_valid c.start n
  rw [hf.1, hf.2.1, hf.2.2.1, hf.2.2.2] at hv
  refine ⟨(y * 12 + (m - 1) + n) / 12, (y * 12 + (m - 1) + n) % 12 + 1, ?_, by omega⟩
  obtain ⟨v1, v2, v3, v4, v5, v6⟩ := hv
  rw [Int.min_comm]
  refine ⟨v1, v2, v3, v4, v5, v6, ?_⟩
  unfold Clock.atIx; rw [h]
  show addMonths c.start n = _
  unfold addMonths
  rw [hf.1, hf.2.1, hf.2.2.1, hf.2.2.2]
  rfl

/-- **C01 (years).** -/
theorem C01_year (c : Clock) (h : c.duration = .year) (y m d us n : Int) (hs : IsDate c.start y m d us) :
    IsDate (c.atIx n) (y + n) m (min d (dim (y + n) m)) us := by
  obtain ⟨h1, h2, h3, h4, h5, h6, he⟩ := hs
  have hf := fields_mk (y := y) (m := m) (d := d) (us := us) ⟨h1, h2, h3, h4, h5, h6⟩
  have e : mkDateTime y m d us = c.start := he.symm
  rw [e] at hf
  have hv := addYears_valid c.start n
  rw [hf.1, hf.2.1, hf.2.2.1, hf.2.2.2] at hv
  obtain ⟨v1, v2, v3, v4, v5, v6⟩ := hv
  rw [Int.min_comm]
  refine ⟨v1, v2, v3, v4, v5, v6, ?_⟩
  unfold Clock.atIx; rw [h]
  show addYears c.start n = _
  unfold addYears
  rw [hf.1, hf.2.1, hf.2.2.1, hf.2.2.2]
  rfl

/-- **C01 (order).** Later periods have later datetimes, for every duration. -/
theorem C01_strictly_increasing (c : Clock) (i j : Int) (h : i < j) : c.atIx i < c.atIx j := by
  unfold Clock.atIx
  cases c.duration <;> simp only [dayUs]
  case month => exact addMonths_strictMono _ h
  case year => rw [addYears_eq, addYears_eq]; exact addMonths_strictMono _ (by omega)
  all_goals omega

/-- Period 0 is the start. -/
theorem C01_zero (c : Clock) : c.atIx 0 = c.start := by
  unfold Clock.atIx
  cases c.duration <;> simp
  · exact addMonths_zero _
  · rw [addYears_eq]; exact addMonths_zero _

/-- **C01 (months vs years).** `12 n` monthly steps and `n` yearly steps reach the same instant. -/
theorem C01_months_years (c c' : Clock) (h : c.duration = .month) (h' : c'.duration = .year) (hs : c.start = c'.start)
    (n : Int) : c.atIx (12 * n) = c'.atIx n := by
  unfold Clock.atIx; rw [h, h', hs]; simp only; rw [addYears_eq]

/-- 31 January 2016 12:00, monthly: one tick later the clock shows 29 February 12:00, two ticks later 31 March. -/
example : let c := Clock.new (mkDateTime 2016 1 31 43200000000) .month 1
    IsDate c.start 2016 1 31 43200000000 ∧
    (c.tick).now = mkDateTime 2016 2 29 43200000000 ∧ (c.tick.tick).now = mkDateTime 2016 3 31 43200000000 ∧
    ([.tick, .tick, .reset, .tick].foldl ClockOp.apply c).now = mkDateTime 2016 2 29 43200000000 := by
  refine ⟨⟨by decide, by decide, by decide, by decide, by decide, by decide, rfl⟩, by decide, by decide, by decide⟩

/-- **C02 is false of the code.** With `timestep_period_count = 2` a tick of a daily clock advances one day, not two. -/
theorem C02_count_ignored : ∃ c : Clock, c.periodCount = 2 ∧ c.tick.now ≠ c.atIx (2 * (c.ix + 1)) ∧ c.tick.now = c.start + dayUs :=
  ⟨Clock.new 0 .day 2, rfl, by decide, by decide⟩

/-- More than that: the count has no influence at all. -/
theorem C02_count_irrelevant (c : Clock) (k : Nat) (ops : List ClockOp) :
    (ops.foldl ClockOp.apply { c with periodCount := k }).now = (ops.foldl ClockOp.apply c).now := by
  have : ∀ (ops : List ClockOp) (c : Clock), ops.foldl ClockOp.apply { c with periodCount := k } =
      { ops.foldl ClockOp.apply c with periodCount := k } := by
    intro ops
    induction ops with
    | nil => intro c; rfl
    | cons o ops ih =>
      intro c
      have e : ClockOp.apply { c with periodCount := k } o = { ClockOp.apply c o with periodCount := k } := by cases o <;> rfl
      rw [List.foldl_cons, e, ih]; rfl
  rw [this]; rfl

/-- **C02 (partial).** For the default `timestep_period_count = 1` a timestep spans that many periods: `n` ticks after
creation the clock is at period `n * timestep_period_count`. Missing: every other count. -/
theorem C02_partial (c : Clock) (h : c.periodCount = 1) (n : Nat) :
    ((List.replicate n ClockOp.tick).foldl ClockOp.apply c.reset).now = c.atIx (n * c.periodCount) := by
  have : ∀ (n : Nat) (c : Clock), (List.replicate n ClockOp.tick).foldl ClockOp.apply c = { c with ix := c.ix + n } := by
    intro n
    induction n with
    | zero => intro c; rfl
    | succ n ih => intro c; rw [List.replicate_succ, List.foldl_cons, ih]; simp [ClockOp.apply, Clock.tick]; omega
  rw [this, h]
  simp [Clock.now, Clock.reset, Clock.atIx]

example : (Clock.new 0 .day 1).periodCount = 1 := rfl

end Auxi.Time.Props
