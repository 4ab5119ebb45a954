import Verif.LoanSet
import Verif.Props.Activity

/-! # C124: a loan keeps to its terms when they are changed or when it is repaid in longer intervals -/
namespace Auxi.Business.Props
open Auxi.Business Spec Time Calendar Ledger

theorem runFor_prepare (clk c : Clock) (m : Nat) (a : Activity) : ∀ k, (runFor clk a k).1.prepare c m = a.prepare c m
  | 0 => rfl
  | k + 1 => by rw [runFor, run_prepare, runFor_prepare clk c m a k]

theorem newLoan_fields {name b l t : Str} {am rate : ℚ} {start d interval : Int} {descr : Option Str} {a : Activity} (h : newLoan name b l t am rate start d interval descr = .ok a) :
    ∃ p, monthlyPayment am rate d = .ok p ∧ a = Activity.new name start (addMonths start (d + 1)) interval descr (.loan b l t am rate p d 0 am) := by
  unfold newLoan at h
  split at h
  · cases h
  · rename_i p hp; cases h; exact ⟨p, hp, rfl⟩

/-- Changing the numbers of a loan and getting ready for a run commute, except for the progress that is reset. -/
theorem prepare_with (x : Activity) (k : Kind) (clk : Clock) (n : Nat) : Activity.prepare clk n { x with kind := k } = { Activity.prepare clk n x with kind := k.reset } := rfl

/-- `x` is the loan `a`, possibly in the middle of a run or after one. -/
def SameLoan (clk : Clock) (n : Nat) (a x : Activity) : Prop := x = a ∨ ∃ c k, x = (runFor c (a.prepare clk n) k).1

theorem same_prepare {clk : Clock} {n : Nat} {a x : Activity} (h : SameLoan clk n a x) : x.prepare clk n = a.prepare clk n := by
  rcases h with rfl | ⟨c, k, rfl⟩
  · rfl
  · rw [runFor_prepare, prepare_idem]

theorem same_kind {clk : Clock} {n : Nat} {a x : Activity} (h : SameLoan clk n a x) {b l t : Str} {am r p : ℚ} {d : Int} (hk : a.kind = .loan b l t am r p d 0 am) :
    ∃ m lf, x.kind = .loan b l t am r p d m lf := by
  have hr : x.kind.reset = a.kind.reset := congrArg Activity.kind (same_prepare h)
  rw [hk] at hr
  cases hx' : x.kind with
  | basic => rw [hx'] at hr; cases hr
  | loan b' l' t' am' r' p' d' m lf =>
    rw [hx'] at hr
    simp only [Kind.reset, Kind.loan.injEq] at hr
    obtain ⟨rfl, rfl, rfl, rfl, rfl, rfl, rfl, _⟩ := hr
    exact ⟨m, lf, rfl⟩

/-- **C124 (amount).** Whenever the amount of a loan is changed, before a run or after one or in the middle of one, the next run is that of a loan made with the new amount. -/
theorem C124_amount (name b l t : Str) (am v rate : ℚ) (start d interval : Int) (descr : Option Str) (a a' : Activity) (clk : Clock) (n : Nat)
    (h : newLoan name b l t am rate start d interval descr = .ok a) (h' : newLoan name b l t v rate start d interval descr = .ok a') (x : Activity)
    (hx : SameLoan clk n a x) :
    (x.setAmount v).1 = .ok () ∧ (x.setAmount v).2.prepare clk n = a'.prepare clk n := by
  obtain ⟨p, hp, rfl⟩ := newLoan_fields h
  obtain ⟨p', hp', rfl⟩ := newLoan_fields h'
  obtain ⟨m, lf, hm⟩ := same_kind hx rfl
  simp only [Activity.setAmount, hm, hp', true_and]
  rw [prepare_with, same_prepare hx]
  rfl

/-- **C124 (interest rate).** The same for the interest rate. -/
theorem C124_rate (name b l t : Str) (am rate v : ℚ) (start d interval : Int) (descr : Option Str) (a a' : Activity) (clk : Clock) (n : Nat)
    (h : newLoan name b l t am rate start d interval descr = .ok a) (h' : newLoan name b l t am v start d interval descr = .ok a') (x : Activity)
    (hx : SameLoan clk n a x) :
    (x.setRate v).1 = .ok () ∧ (x.setRate v).2.prepare clk n = a'.prepare clk n := by
  obtain ⟨p, hp, rfl⟩ := newLoan_fields h
  obtain ⟨p', hp', rfl⟩ := newLoan_fields h'
  obtain ⟨m, lf, hm⟩ := same_kind hx rfl
  simp only [Activity.setRate, hm, hp', true_and]
  rw [prepare_with, same_prepare hx]
  rfl

/-! ## What a whole run leaves -/

/-- The window of a loan that starts with the clock. -/
theorem loan_window {a : Activity} {clk : Clock} {n d : Nat} (e1 : a.start = clk.start) (e2 : a.stop = addMonths clk.start (d + 1)) (hf : Fresh a) (hm : clk.duration = .month)
    (hs : clk.start ≠ dtMin) (hmax : addMonths clk.start (d + 1) ≠ dtMax) (hn : d + 2 ≤ n) :
    (a.prepare clk n).startIx = 1 ∧ min ((a.prepare clk n).endIx) (n : Int) = d + 2 ∧ ((a.prepare clk n).endIx = d + 2 ∨ (n = d + 2 ∧ (a.prepare clk n).endIx = d + 3)) := by
  have hat : ∀ i : Int, clk.atIx i = addMonths clk.start i := by intro i; simp [Clock.atIx, hm]
  have ha0 := addMonths_zero clk.start
  have hlt : ∀ i j : Int, i < j → addMonths clk.start i < addMonths clk.start j := fun i j => addMonths_strictMono clk.start
  have hle : ∀ i j : Int, i ≤ j → addMonths clk.start i ≤ addMonths clk.start j := by
    intro i j hij
    rcases eq_or_lt_of_le hij with h | h
    · rw [h]
    · exact (hlt _ _ h).le
  obtain ⟨w1, _, w3, w4⟩ := C16_window a clk n hf
  have hS : (a.prepare clk n).startIx = 1 := by
    refine w1 1 (by rw [e1]; exact hs) ⟨by omega, ?_, ?_⟩
    · rw [hat, e1]; conv_lhs => rw [← ha0]
      exact hlt _ _ (by norm_num)
    · intro j hj
      have : j = 0 := by omega
      subst this
      rw [hat, e1]; simp only [Nat.cast_zero]; rw [ha0]
  refine ⟨hS, ?_⟩
  by_cases hn' : n = d + 2
  · have : (a.prepare clk n).endIx = (a.prepare clk n).startIx + n := by
      refine w4 (.inr (.inl ?_))
      rintro i ⟨i1, i2, _⟩
      rw [hat, e2] at i2
      have := hle i (d + 1) (by omega)
      omega
    rw [this, hS]; refine ⟨by omega, .inr ⟨hn', by omega⟩⟩
  · have : (a.prepare clk n).endIx = ((d + 2 : Nat) : Int) := by
      refine w3 (d + 2) (by rw [e2]; exact hmax) ⟨by omega, ?_, ?_⟩ (by rw [hS]; omega)
      · rw [hat, e2]; exact hlt _ _ (by omega)
      · intro j hj; rw [hat, e2]; exact hle _ _ (by omega)
    rw [this]; exact ⟨by omega, .inl (by omega)⟩

/-- What a run leaves on the loan account. -/
theorem loan_final {a : Activity} {clk : Clock} {n : Nat} {b l t : Str} {am r p : ℚ} {d : Int} (hk : a.kind = .loan b l t am r p d 0 am) (hint : a.interval ≠ 0) (hbl : b ≠ l) (htl : t ≠ l)
    (hbt : b ≠ t) (hex : 0 < execsBefore a n) : netCredit l (runFor clk a n).2 = outstanding am r p (execsBefore a n - 1) := by
  obtain ⟨m, lf, f1, f2, _⟩ := C19_loan_balance a clk n b l t am r p d hk hint hbl htl hbt hex
  have hl0 : ∀ b l t am r p d m lf, a.kind = .loan b l t am r p d m lf → m = 0 ∧ lf = am := by
    intro b l t am r p d m lf h; rw [hk] at h; simp only [Kind.loan.injEq] at h
    exact ⟨by simp [h], by rw [← h.2.2.2.1]; exact h.2.2.2.2.2.2.2.2.symm⟩
  rw [runFor_eq clk _ n (stateAt_zero hl0) (fun _ _ _ _ _ _ _ _ _ _ => hint)] at f1
  simp only [stateAt, hk, Kind.loan.injEq, true_and] at f1
  rw [f2, ← f1.2]

/-- Monthly instalments from the start of the clock: one payment for every month of the duration that the end date was made for. -/
theorem loan_execs {a : Activity} {clk : Clock} {n d : Nat} (e1 : a.start = clk.start) (e2 : a.stop = addMonths clk.start (d + 1)) (hf : Fresh a) (hm : clk.duration = .month)
    (hs : clk.start ≠ dtMin) (hmax : addMonths clk.start (d + 1) ≠ dtMax) (hn : d + 2 ≤ n) (hi : a.interval = 1) (hact : Active (a.prepare clk n)) :
    execsBefore (a.prepare clk n) n = d + 1 := by
  obtain ⟨hS, hE, _⟩ := loan_window e1 e2 hf hm hs hmax hn
  have hi' : (a.prepare clk n).interval = 1 := hi
  have hcount := C16_count (a.prepare clk n) n (by omega) (by omega) hact
  rw [hi', hS] at hcount
  simp only [Int.ediv_one] at hcount
  omega

/-- Longer intervals: fewer instalments than months. -/
theorem loan_execs_interval {a : Activity} {clk : Clock} {n d : Nat} (e1 : a.start = clk.start) (e2 : a.stop = addMonths clk.start (d + 1)) (hf : Fresh a) (hm : clk.duration = .month)
    (hs : clk.start ≠ dtMin) (hmax : addMonths clk.start (d + 1) ≠ dtMax) (hn : d + 2 ≤ n) (hi : 2 ≤ a.interval) (hact : Active (a.prepare clk n)) (hd : 0 < d) :
    execsBefore (a.prepare clk n) n ≤ d := by
  obtain ⟨hS, hE, hE'⟩ := loan_window e1 e2 hf hm hs hmax hn
  have hi' : (a.prepare clk n).interval = a.interval := rfl
  have hcount := C16_count (a.prepare clk n) n (by omega) (by omega) hact
  rw [hi', hS] at hcount
  have h1 : ((a.prepare clk n).endIx + 1) / a.interval ≤ ((a.prepare clk n).endIx + 1) / 2 :=
    Int.le_ediv_of_mul_le (by norm_num) (by
      have h0 : 0 ≤ ((a.prepare clk n).endIx + 1) / a.interval := Int.ediv_nonneg (by omega) (by omega)
      have := Int.ediv_mul_le ((a.prepare clk n).endIx + 1) (show a.interval ≠ 0 by omega)
      nlinarith)
  have h2 : 1 ≤ (1 + a.interval) / a.interval := Int.le_ediv_of_mul_le (by omega) (by omega)
  omega

/-- The loan account after a run with the payment of `d'` months and the end date of `d` months. -/
theorem outstanding_other {am rate p : ℚ} {d' : Nat} (hr : 0 < rate) (ha : 0 < am) (hd : 0 < d') (hp : monthlyPayment am rate d' = .ok p) (d : Nat) :
    (outstanding am rate p d = 0 ↔ d' = d) ∧ (d < d' → 0 < outstanding am rate p d) ∧ (d' < d → outstanding am rate p d < 0) := by
  have hr' : 0 < rate / 12 := by positivity
  have hg := pow_gt_one hr' hd
  have h1 : ¬ 1 + rate / 12 = 0 := by linarith
  have hpos : 0 < (1 + rate / 12) ^ d' := by positivity
  have h2 : ¬ 1 - 1 / (1 + rate / 12) ^ d' = 0 := by
    have : 1 / (1 + rate / 12) ^ d' < 1 := by rw [div_lt_one hpos]; exact hg
    linarith
  unfold monthlyPayment at hp
  simp only [zpow_natCast] at hp
  rw [if_neg h1, if_neg h2] at hp
  have hc := outstanding_closed (A := am) (rate := rate) (n := d') hr'.ne' hg.ne' h1 (Except.ok.inj hp).symm d
  have hden : 0 < (1 + rate / 12) ^ d' - 1 := by linarith
  have lt : ∀ {i j : ℕ}, i < j → (1 + rate / 12) ^ i < (1 + rate / 12) ^ j := fun h => pow_lt_pow_right₀ (by linarith) h
  have g1 : d < d' → 0 < outstanding am rate p d := by
    intro h; rw [hc]; exact div_pos (mul_pos ha (by have := lt h; linarith)) hden
  have g2 : d' < d → outstanding am rate p d < 0 := by
    intro h; rw [hc]; exact div_neg_of_neg_of_pos (mul_neg_of_pos_of_neg ha (by have := lt h; linarith)) hden
  refine ⟨⟨fun h => ?_, fun h => by rw [hc, h]; simp⟩, g1, g2⟩
  rcases lt_trichotomy d d' with h' | h' | h'
  · have := g1 h'; linarith
  · exact h'.symm
  · have := g2 h'; linarith

/-- **C124 (violated: longer intervals).** A loan with an interval of two or more months is charged one month's interest and repaid one month's instalment per interval: when its time is up, it is
not repaid (or was never made). -/
theorem C124_interval_violated (name b l t : Str) (am rate : ℚ) (d : Nat) (interval : Int) (descr : Option Str) (a : Activity) (clk : Clock) (n : Nat)
    (h : newLoan name b l t am rate clk.start d interval descr = .ok a) (hi : 2 ≤ interval) (hr : 0 < rate) (ha : 0 < am) (hd : 0 < d) (hm : clk.duration = .month) (hs : clk.start ≠ dtMin)
    (hmax : addMonths clk.start (d + 1) ≠ dtMax) (hn : d + 2 ≤ n) (hbl : b ≠ l) (htl : t ≠ l) (hbt : b ≠ t) :
    (runFor clk (a.prepare clk n) n).2 = [] ∨ 0 < netCredit l (runFor clk (a.prepare clk n) n).2 := by
  obtain ⟨p, hp, rfl⟩ := newLoan_fields h
  set a := Activity.new name clk.start (addMonths clk.start (d + 1)) interval descr (.loan b l t am rate p d 0 am) with hae
  have hk : (a.prepare clk n).kind = .loan b l t am rate p d 0 am := rfl
  have hact : Active (a.prepare clk n) := by simp [Active, hk, ha, hd]
  have he := loan_execs_interval (a := a) (clk := clk) (n := n) (d := d) rfl rfl ⟨rfl, rfl⟩ hm hs hmax hn hi hact hd
  have hint : (a.prepare clk n).interval ≠ 0 := by change interval ≠ 0; omega
  rcases Nat.eq_zero_or_pos (execsBefore (a.prepare clk n) n) with h0 | h0
  · left
    have hl0 : ∀ b l t am r p d m lf, (a.prepare clk n).kind = .loan b l t am r p d m lf → m = 0 ∧ lf = am := by
      intro b l t am r p d m lf h; rw [hk] at h; simp only [Kind.loan.injEq] at h
      exact ⟨by simp [h], by rw [← h.2.2.2.1]; exact h.2.2.2.2.2.2.2.2.symm⟩
    rw [runFor_eq clk _ n (stateAt_zero hl0) (fun _ _ _ _ _ _ _ _ _ _ => hint)]
    simp only [List.flatMap_eq_nil_iff]
    intro i hi'
    have : ¬ Due (a.prepare clk n) i := by
      intro hdue
      have : i ∈ (List.range n).filter (fun k => Due (a.prepare clk n) k) := List.mem_filter.2 ⟨hi', by simpa using hdue⟩
      rw [List.length_eq_zero_iff.1 h0] at this
      cases this
    simp [txsAt, this]
  · right
    rw [loan_final hk hint hbl htl hbt h0]
    exact (outstanding_other hr ha hd hp _).2.1 (by omega)

/-- **C124 (violated: duration).** Changing the duration of a loan changes nothing ... -/
theorem C124_duration_ignored_violated (name b l t : Str) (am rate : ℚ) (start d d' interval : Int) (descr : Option Str) (a x : Activity) (clk : Clock) (n : Nat)
    (h : newLoan name b l t am rate start d interval descr = .ok a) (hx : SameLoan clk n a x) (hd : 0 < d) (hd' : 0 < d') (hi : interval ≠ 0) :
    (runFor clk ((x.setDuration d').prepare clk n) n).2 = (runFor clk (a.prepare clk n) n).2 := by
  obtain ⟨p, hp, rfl⟩ := newLoan_fields h
  obtain ⟨m, lf, hm⟩ := same_kind hx rfl
  have hxd : x.setDuration d' = { x with kind := .loan b l t am rate p d' m lf } := by simp only [Activity.setDuration, hm]
  rw [hxd, prepare_with, same_prepare hx]
  set a := Activity.new name start (addMonths start (d + 1)) interval descr (.loan b l t am rate p d 0 am) with hae
  set y : Activity := { a.prepare clk n with kind := (Kind.loan b l t am rate p d' m lf).reset } with hy
  have hyk : y.kind = .loan b l t am rate p d' 0 am := rfl
  have hak : (a.prepare clk n).kind = .loan b l t am rate p d 0 am := rfl
  have z : ∀ (c : Activity) (d : Int), c.kind = .loan b l t am rate p d 0 am → ∀ b l t am r p d m lf, c.kind = .loan b l t am r p d m lf → m = 0 ∧ lf = am := by
    intro c d hc b l t am r p d m lf h; rw [hc] at h; simp only [Kind.loan.injEq] at h
    exact ⟨by simp [h], by rw [← h.2.2.2.1]; exact h.2.2.2.2.2.2.2.2.symm⟩
  rw [runFor_eq clk y n (stateAt_zero (z y d' hyk)) (fun _ _ _ _ _ _ _ _ _ _ => hi), runFor_eq clk (a.prepare clk n) n (stateAt_zero (z _ d hak)) (fun _ _ _ _ _ _ _ _ _ _ => hi)]
  have hdue : ∀ i, Due y i ↔ Due (a.prepare clk n) i := by
    intro i
    have e1 : Scheduled y i ↔ Scheduled (a.prepare clk n) i := Iff.rfl
    have e2 : Active y ↔ Active (a.prepare clk n) := by simp only [Active, hyk, hak, hd, hd', and_true]
    unfold Due; rw [e1, e2]
  have hexec : ∀ i, execsBefore y i = execsBefore (a.prepare clk n) i := by
    intro i; unfold execsBefore
    congr 1
    exact List.filter_congr fun k _ => by rw [decide_eq_decide]; exact hdue k
  dsimp only
  refine List.flatMap_congr fun i _ => ?_
  unfold txsAt
  simp only [hdue i, hyk, hak, hexec]
  rfl

/-- **C124 (violated: duration, continued).** ... until the rate (or the amount) is set as well, even to what it is: then the instalments are those of the new duration but the end date stays
that of the old one, so that at the end the loan is repaid only if the duration has not changed: with a longer duration an amount is left, with a shorter one too much is repaid. -/
theorem C124_duration_unpaid_violated (name b l t : Str) (am rate : ℚ) (d d' : Nat) (descr : Option Str) (a : Activity) (clk : Clock) (n : Nat)
    (h : newLoan name b l t am rate clk.start d 1 descr = .ok a) (hr : 0 < rate) (ha : 0 < am) (hd' : 0 < d') (hm : clk.duration = .month) (hs : clk.start ≠ dtMin)
    (hmax : addMonths clk.start (d + 1) ≠ dtMax) (hn : d + 2 ≤ n) (hbl : b ≠ l) (htl : t ≠ l) (hbt : b ≠ t) :
    ((a.setDuration d').setRate rate).1 = .ok () ∧
    (netCredit l (runFor clk (((a.setDuration d').setRate rate).2.prepare clk n) n).2 = 0 ↔ d' = d) ∧
    (d < d' → 0 < netCredit l (runFor clk (((a.setDuration d').setRate rate).2.prepare clk n) n).2) ∧
    (d' < d → netCredit l (runFor clk (((a.setDuration d').setRate rate).2.prepare clk n) n).2 < 0) := by
  obtain ⟨p, hp, rfl⟩ := newLoan_fields h
  obtain ⟨a', h'⟩ := (C21_constructible_partial name b l t am rate clk.start d' 1 descr).2 hr (by omega)
  obtain ⟨p', hp', _⟩ := newLoan_fields h'
  set y := Activity.new name clk.start (addMonths clk.start (d + 1)) 1 descr (.loan b l t am rate p' d' 0 am) with hy
  have e : ((Activity.new name clk.start (addMonths clk.start (d + 1)) 1 descr (.loan b l t am rate p d 0 am)).setDuration d').setRate rate = (.ok (), y) := by
    simp only [Activity.setDuration, Activity.setRate, Activity.new, hp', hy]
  rw [e]
  have hk : (y.prepare clk n).kind = .loan b l t am rate p' d' 0 am := rfl
  have hact : Active (y.prepare clk n) := by simp [Active, hk, ha, hd']
  have he := loan_execs (a := y) (clk := clk) (n := n) (d := d) rfl rfl ⟨rfl, rfl⟩ hm hs hmax hn rfl hact
  have hfin := loan_final (clk := clk) hk (by change (1 : Int) ≠ 0; norm_num) hbl htl hbt (by omega : 0 < execsBefore (y.prepare clk n) n)
  rw [he, Nat.add_sub_cancel] at hfin
  rw [hfin]
  exact ⟨rfl, outstanding_other hr ha hd' hp' d⟩

/-- **C124 (violated: a rate that is refused).** Setting the rate to zero raises `ZeroDivisionError`, but the rate is zero from then on while the instalments stay: the next run charges no
interest and repays more than the loan. -/
theorem C124_refused_rate_violated (name b l t : Str) (am rate : ℚ) (d : Nat) (descr : Option Str) (a : Activity) (clk : Clock) (n : Nat)
    (h : newLoan name b l t am rate clk.start d 1 descr = .ok a) (hr : 0 < rate) (ha : 0 < am) (hd : 0 < d) (hm : clk.duration = .month) (hs : clk.start ≠ dtMin)
    (hmax : addMonths clk.start (d + 1) ≠ dtMax) (hn : d + 2 ≤ n) (hbl : b ≠ l) (htl : t ≠ l) (hbt : b ≠ t) :
    (a.setRate 0).1 = .error .zeroDivisionError ∧ netCredit l (runFor clk ((a.setRate 0).2.prepare clk n) n).2 < 0 := by
  obtain ⟨p, hp, rfl⟩ := newLoan_fields h
  set y := Activity.new name clk.start (addMonths clk.start (d + 1)) 1 descr (.loan b l t am 0 p d 0 am) with hy
  have e : (Activity.new name clk.start (addMonths clk.start (d + 1)) 1 descr (.loan b l t am rate p d 0 am)).setRate 0 = (.error .zeroDivisionError, y) := by
    simp [Activity.setRate, Activity.new, hy, monthlyPayment]
  rw [e]
  refine ⟨rfl, ?_⟩
  have hk : (y.prepare clk n).kind = .loan b l t am 0 p d 0 am := rfl
  have hact : Active (y.prepare clk n) := by simp [Active, hk, ha, hd]
  have he := loan_execs (a := y) (clk := clk) (n := n) (d := d) rfl rfl ⟨rfl, rfl⟩ hm hs hmax hn rfl hact
  have hfin := loan_final (clk := clk) hk (by change (1 : Int) ≠ 0; norm_num) hbl htl hbt (by omega : 0 < execsBefore (y.prepare clk n) n)
  rw [he, Nat.add_sub_cancel] at hfin
  dsimp only
  rw [hfin]
  have key : ∀ j, j ≤ d → outstanding am 0 p j ≤ outstanding am rate p j ∧ (0 < j → outstanding am 0 p j < outstanding am rate p j) := by
    intro j
    induction j with
    | zero => intro _; simp [outstanding]
    | succ j ih =>
      intro hj
      have h1 := (ih (by omega)).1
      have h2 := (outstanding_other hr ha hd hp j).2.1 (by omega)
      have h3 : 0 < outstanding am rate p j * rate := mul_pos h2 hr
      have : outstanding am 0 p (j + 1) < outstanding am rate p (j + 1) := by
        simp only [outstanding]; linarith
      exact ⟨this.le, fun _ => this⟩
  have h1 := (key d le_rfl).2 hd
  rw [((outstanding_other hr ha hd hp d).1).2 rfl] at h1
  exact h1

/-! ## Changes while the loan runs -/

/-- What can happen to a loan while the model runs: a period passes, or a term is set (successfully or not). -/
inductive LoanOp
  | period (clk : Clock)
  | amount (v : ℚ)
  | rate (v : ℚ)
  | duration (v : Int)

/-- The loan after one event, and the transactions it made. -/
def LoanOp.apply (a : Activity) : LoanOp → Activity × List Tx
  | .period clk => a.run clk
  | .amount v => ((a.setAmount v).2, [])
  | .rate v => ((a.setRate v).2, [])
  | .duration v => (a.setDuration v, [])

/-- The loan after a history of events, and the transactions they made. -/
def loanHistory (a : Activity) : List LoanOp → Activity × List Tx
  | [] => (a, [])
  | op :: ops => ((loanHistory (op.apply a).1 ops).1, (op.apply a).2 ++ (loanHistory (op.apply a).1 ops).2)

/-- The loan `a` has been paid out, and `left` of it is what the next interest is reckoned on. -/
def PaidOut (a : Activity) (b l t : Str) (left : ℚ) : Prop := 0 < a.interval ∧ ∃ am r p d m, 0 < m ∧ a.kind = .loan b l t am r p d m left

theorem netCredit_append (l : Str) (x y : List Tx) : netCredit l (x ++ y) = netCredit l x + netCredit l y := by
  simp [netCredit]

theorem paid_step {a : Activity} {b l t : Str} {left : ℚ} (h : PaidOut a b l t left) (hbl : b ≠ l) (htl : t ≠ l) (op : LoanOp) :
    PaidOut (op.apply a).1 b l t (left + netCredit l (op.apply a).2) := by
  obtain ⟨hi, am, r, p, d, m, hm, hk⟩ := h
  cases op with
  | period clk =>
    simp only [LoanOp.apply, Activity.run]
    split
    · exact ⟨hi, am, r, p, d, m, hm, by simp [hk, netCredit]⟩
    · simp only [hk]
      rw [if_neg hm.ne']
      refine ⟨hi, am, r, p, d, m + a.interval, by omega, ?_⟩
      simp [netCredit, hbl, htl]
      ring
  | amount v =>
    simp only [LoanOp.apply, Activity.setAmount, hk]
    split
    · exact ⟨hi, v, r, p, d, m, hm, by simp [netCredit]⟩
    · rename_i p' _; exact ⟨hi, v, r, p', d, m, hm, by simp [netCredit]⟩
  | rate v =>
    simp only [LoanOp.apply, Activity.setRate, hk]
    split
    · exact ⟨hi, am, v, p, d, m, hm, by simp [netCredit]⟩
    · rename_i p' _; exact ⟨hi, am, v, p', d, m, hm, by simp [netCredit]⟩
  | duration v =>
    simp only [LoanOp.apply, Activity.setDuration, hk]
    exact ⟨hi, am, r, p, v, m, hm, by simp [netCredit]⟩

/-- **C124 (changed while running).** Once a loan has been paid out, whatever terms are changed however often and whatever periods pass: the interest is reckoned on what is owed, that is, the
amount it is reckoned on and the balance of the loan account move together. -/
theorem C124_balance_history {a : Activity} {b l t : Str} {left : ℚ} (h : PaidOut a b l t left) (hbl : b ≠ l) (htl : t ≠ l) :
    ∀ ops, PaidOut (loanHistory a ops).1 b l t (left + netCredit l (loanHistory a ops).2)
  | [] => by simpa [loanHistory, netCredit] using h
  | op :: ops => by
    have := C124_balance_history (paid_step h hbl htl op) hbl htl ops
    rw [loanHistory]
    dsimp only
    rw [netCredit_append, ← add_assoc]
    exact this

/-- **C124 (what is paid).** The transactions of the period after such a history: interest at the rate that was set last on what is owed, and the instalment that goes with the terms. -/
theorem C124_period_history {a : Activity} {b l t : Str} {left : ℚ} (h : PaidOut a b l t left) (hbl : b ≠ l) (htl : t ≠ l) (ops : List LoanOp) (clk : Clock)
    (hdue : (loanHistory a ops).1.meets clk.ix = true) :
    ∃ am r p d m, (loanHistory a ops).1.kind = .loan b l t am r p d m (left + netCredit l (loanHistory a ops).2) ∧
      (((loanHistory a ops).1).run clk).2.map (fun x => (x.dt, x.cr, x.amount)) = [(t, l, (left + netCredit l (loanHistory a ops).2) * r / 12), (l, b, p)] := by
  obtain ⟨_, am, r, p, d, m, hm, hk⟩ := C124_balance_history h hbl htl ops
  refine ⟨am, r, p, d, m, hk, ?_⟩
  simp only [Activity.run, hdue, Bool.true_eq_false, if_false, hk]
  rw [if_neg hm.ne']
  rfl

/-- **C124 (violated: changed before it is paid out).** When the amount is changed after the model has got ready for a run and before the loan is paid out, the new amount is paid out but
the interest goes on the old one. -/
theorem C124_amount_unpaid_violated (name b l t : Str) (am v rate : ℚ) (start d interval : Int) (descr : Option Str) (a a' : Activity) (clk : Clock) (n : Nat)
    (h : newLoan name b l t am rate start d interval descr = .ok a) (h' : newLoan name b l t v rate start d interval descr = .ok a') (hi : 0 < interval) (hbl : b ≠ l) (c1 : Clock)
    (hd1 : (((a.prepare clk n).setAmount v).2).meets c1.ix = true) :
    netCredit l ((((a.prepare clk n).setAmount v).2).run c1).2 = v ∧ PaidOut ((((a.prepare clk n).setAmount v).2).run c1).1 b l t am := by
  obtain ⟨p, hp, rfl⟩ := newLoan_fields h
  obtain ⟨p', hp', rfl⟩ := newLoan_fields h'
  have hk : ((Activity.new name start (addMonths start (d + 1)) interval descr (.loan b l t am rate p d 0 am)).prepare clk n).kind = .loan b l t am rate p d 0 am := rfl
  have hk' : ((((Activity.new name start (addMonths start (d + 1)) interval descr (.loan b l t am rate p d 0 am)).prepare clk n).setAmount v).2).kind = .loan b l t v rate p' d 0 am := by
    simp only [Activity.setAmount, hk, hp']
  have hint : ((((Activity.new name start (addMonths start (d + 1)) interval descr (.loan b l t am rate p d 0 am)).prepare clk n).setAmount v).2).interval = interval := by
    simp only [Activity.setAmount, hk, hp']; rfl
  simp only [Activity.run, hd1, Bool.true_eq_false, if_false, hk']
  simp only [if_true]
  refine ⟨by simp [netCredit, hbl], ?_⟩
  refine ⟨?_, v, rate, p', d, _, ?_, rfl⟩
  · change 0 < Activity.interval _; rw [hint]; exact hi
  · rw [hint]; omega

/-! ## Examples -/

/-- A loan of 1000 at 12 % over three months that is repaid every second month. -/
def loan2 : Activity := match newLoan "Loan".toList "Bank".toList "Loan".toList "Interest".toList 1000 (12/100) clkM.start (3 : Nat) 2 none with
  | .ok a => a
  | .error _ => actB

/-- The same, repaid every month. -/
def loan1 : Activity := match newLoan "Loan".toList "Bank".toList "Loan".toList "Interest".toList 1000 (12/100) clkM.start (3 : Nat) 1 none with
  | .ok a => a
  | .error _ => actB

/-- The same, of 2000. -/
def loan1' : Activity := match newLoan "Loan".toList "Bank".toList "Loan".toList "Interest".toList 2000 (12/100) clkM.start (3 : Nat) 1 none with
  | .ok a => a
  | .error _ => actB

/-- The loan that is repaid every second month is paid out and not repaid. -/
example : newLoan "Loan".toList "Bank".toList "Loan".toList "Interest".toList 1000 (12/100) clkM.start (3 : Nat) 2 none = .ok loan2 ∧ (runFor clkM (loan2.prepare clkM 9) 9).2 ≠ [] ∧
    0 < netCredit "Loan".toList (runFor clkM (loan2.prepare clkM 9) 9).2 := by decide +kernel

/-- The amount is changed in the middle of a run, after money has moved. -/
example : newLoan "Loan".toList "Bank".toList "Loan".toList "Interest".toList 1000 (12/100) clkM.start (3 : Nat) 1 none = .ok loan1 ∧
    newLoan "Loan".toList "Bank".toList "Loan".toList "Interest".toList 2000 (12/100) clkM.start (3 : Nat) 1 none = .ok loan1' ∧
    SameLoan clkM 9 loan1 (runFor clkM (loan1.prepare clkM 9) 3).1 ∧ (runFor clkM (loan1.prepare clkM 9) 3).1.kind ≠ loan1.kind ∧
    ((runFor clkM (loan1.prepare clkM 9) 3).1.setAmount 2000).2.prepare clkM 9 = loan1'.prepare clkM 9 :=
  ⟨by decide +kernel, by decide +kernel, .inr ⟨clkM, 3, rfl⟩, by decide +kernel, by decide +kernel⟩

/-- Five months instead of three: an amount is left; two months: too much is repaid; a rate of zero. -/
example : clkM.duration = .month ∧ clkM.start ≠ dtMin ∧ addMonths clkM.start (3 + 1) ≠ dtMax ∧
    0 < netCredit "Loan".toList (runFor clkM (((loan1.setDuration 5).setRate (12/100)).2.prepare clkM 9) 9).2 ∧
    netCredit "Loan".toList (runFor clkM (((loan1.setDuration 2).setRate (12/100)).2.prepare clkM 9) 9).2 < 0 ∧
    netCredit "Loan".toList (runFor clkM ((loan1.setRate 0).2.prepare clkM 9) 9).2 < 0 ∧
    (runFor clkM ((loan1.setDuration 5).prepare clkM 9) 9).2 ≠ [] := by
  refine ⟨rfl, by decide, by decide, by decide +kernel, by decide +kernel, by decide +kernel, by decide +kernel⟩

/-- The amount is doubled while the loan is being repaid, then the rate is refused, then a period passes. -/
example : PaidOut (runFor clkM (loan1.prepare clkM 9) 3).1 "Bank".toList "Loan".toList "Interest".toList (netCredit "Loan".toList (runFor clkM (loan1.prepare clkM 9) 3).2) :=
  ⟨by decide +kernel, 1000, 12/100, 10303010/30301, 3, 2, by decide, by decide +kernel⟩

/-- A loan of 1000 that is doubled before it is paid out. -/
example : (((loan1.prepare clkM 9).setAmount 2000).2).meets 1 = true ∧ "Bank".toList ≠ "Loan".toList ∧
    ((((loan1.prepare clkM 9).setAmount 2000).2).run (clockAt clkM 1)).2.map (·.amount) = [2000] ∧
    (((((loan1.prepare clkM 9).setAmount 2000).2).run (clockAt clkM 1)).1.run (clockAt clkM 2)).2.head?.map (·.amount) = some 10 := by
  decide +kernel

end Auxi.Business.Props
