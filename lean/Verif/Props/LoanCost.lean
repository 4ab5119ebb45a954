import Verif.Spec.LoanCost
import Verif.Props.Activity
import Mathlib.Tactic.FieldSimp
import Mathlib.Tactic.Positivity
import Mathlib.Algebra.Order.BigOperators.Group.List

/-! # C159: what a loan costs -/
namespace Auxi.Business.Props
open Auxi.Business Spec Time Calendar

/-- the worth today of a unit a month -/
def annuity (v : ℚ) : Nat → ℚ
  | 0 => 0
  | k + 1 => annuity v k + v ^ (k + 1)

theorem presentValue_eq (rate p : ℚ) (d : Nat) : presentValue rate p d = p * annuity (1 / (1 + rate / 12)) d := by
  unfold presentValue
  induction d with
  | zero => simp [annuity]
  | succ d ih => rw [List.range_succ, List.map_append, List.sum_append, ih, annuity]; simp [div_pow]; ring

theorem annuity_closed (i : ℚ) (hi : 1 + i ≠ 0) (d : Nat) : i * annuity (1 / (1 + i)) d = 1 - (1 / (1 + i)) ^ d := by
  induction d with
  | zero => simp [annuity]
  | succ d ih =>
    rw [annuity, mul_add, ih, pow_succ]
    field_simp
    ring

theorem annuity_pos {v : ℚ} (hv : 0 < v) {d : Nat} (hd : 0 < d) : 0 < annuity v d := by
  induction d with
  | zero => omega
  | succ d ih =>
    rw [annuity]
    have : 0 < v ^ (d + 1) := pow_pos hv _
    rcases Nat.eq_zero_or_pos d with rfl | h
    · simpa [annuity] using hv
    · have := ih h; linarith

theorem annuity_mono {v : ℚ} (hv : 0 < v) {d d' : Nat} (h : d < d') : annuity v d < annuity v d' := by
  induction d' with
  | zero => omega
  | succ k ih =>
    rw [annuity]
    have : 0 < v ^ (k + 1) := pow_pos hv _
    rcases Nat.lt_succ_iff_lt_or_eq.1 h with h | rfl
    · have := ih h; linarith
    · linarith

theorem annuity_lt {v w : ℚ} (hv : 0 < v) (h : v < w) {d : Nat} (hd : 0 < d) : annuity v d < annuity w d := by
  induction d with
  | zero => omega
  | succ d ih =>
    rw [annuity, annuity]
    have h1 : v ^ (d + 1) < w ^ (d + 1) := pow_lt_pow_left₀ h hv.le (by omega)
    rcases Nat.eq_zero_or_pos d with rfl | hd
    · simpa [annuity] using h
    · have := ih hd; linarith

/-- a unit a month is worth at least the last one, each time -/
theorem annuity_ge {v : ℚ} (hv : 0 < v) (h1 : v < 1) (d n : Nat) (h : d ≤ n) : d * v ^ n ≤ annuity v d := by
  induction d with
  | zero => simp [annuity]
  | succ d ih =>
    rw [annuity]
    have := ih (by omega)
    have : v ^ n ≤ v ^ (d + 1) := pow_le_pow_of_le_one hv.le h1.le h
    push_cast
    linarith

theorem annuity_gt {v : ℚ} (hv : 0 < v) (h1 : v < 1) (d n : Nat) (h : d < n) (hd : 0 < d) : d * v ^ n < annuity v d := by
  have := annuity_ge hv h1 d d (le_refl _)
  have h2 : v ^ n < v ^ d := pow_lt_pow_right_of_lt_one₀ hv h1 h
  have : (d : ℚ) * v ^ n < d * v ^ d := mul_lt_mul_of_pos_left h2 (by exact_mod_cast hd)
  linarith

/-- the longer, the less the average unit is worth -/
theorem annuity_avg {v : ℚ} (hv : 0 < v) (h1 : v < 1) {d d' : Nat} (hd : 0 < d) (h : d < d') : d * annuity v d' < d' * annuity v d := by
  induction d' with
  | zero => omega
  | succ k ih =>
    rw [annuity]
    have hg := annuity_gt hv h1 d (k + 1) h hd
    push_cast
    rcases Nat.lt_succ_iff_lt_or_eq.1 h with h | rfl
    · have := ih h; linarith
    · linarith

theorem loan_pays {name b l t : Str} {am rate : ℚ} {start interval : Int} {d : Nat} {descr : Option Str} {a : Activity}
    (h : newLoan name b l t am rate start d interval descr = .ok a) (hr : 0 < rate) (hd : 0 < d) :
    ∃ p, a.kind = .loan b l t am rate p d 0 am ∧ p * annuity (1 / (1 + rate / 12)) d = am := by
  have hr' : 0 < rate / 12 := by positivity
  have hg := pow_gt_one hr' hd
  unfold newLoan monthlyPayment at h
  simp only [zpow_natCast] at h
  have h1 : ¬ 1 + rate / 12 = 0 := by linarith
  have hpos : 0 < (1 + rate / 12) ^ d := by positivity
  have h2 : ¬ 1 - 1 / (1 + rate / 12) ^ d = 0 := by
    have : 1 / (1 + rate / 12) ^ d < 1 := by rw [div_lt_one hpos]; exact hg
    linarith
  rw [if_neg h1, if_neg h2] at h
  simp only [Except.ok.injEq] at h
  subst h
  refine ⟨_, rfl, ?_⟩
  have hc := annuity_closed (rate / 12) h1 d
  rw [div_pow, one_pow] at hc
  rw [← hc, div_mul_eq_mul_div]
  have ha : annuity (1 / (1 + rate / 12)) d ≠ 0 := (annuity_pos (by positivity) hd).ne'
  generalize annuity (1 / (1 + rate / 12)) d = A at ha ⊢
  have := hr'.ne'
  field_simp

/-- the monthly payment for a loan of 1000 at 12 % over three months: 10/(1 - 1/1.01³), about 340.02 -/
def pay3 : ℚ := 10 / (1 - 1 / (101/100) ^ 3)

theorem actL'_pays : LoanPays "Loan".toList "Bank/Default".toList "Long Term Borrowing/Loan".toList "Expense/Interest".toList 1000 (12/100) clkM.start 3 1 none actL' pay3 := by
  refine ⟨by decide +kernel, by decide +kernel⟩

/-- **C159.** The monthly payment is the fair one: all payments together are worth, on the day the loan is made, the amount of the loan. -/
theorem C159_fair (name b l t : Str) (am rate : ℚ) (start interval : Int) (d : Nat) (descr : Option Str) (a : Activity) (p : ℚ) (hr : 0 < rate) (hd : 0 < d)
    (h : LoanPays name b l t am rate start d interval descr a p) : presentValue rate p d = am := by
  obtain ⟨q, hq, he⟩ := loan_pays h.1 hr hd
  have := h.2.symm.trans hq
  simp only [Kind.loan.injEq, true_and, and_true] at this
  rw [presentValue_eq, this, he]

example : presentValue (12/100) pay3 3 = 1000 := C159_fair _ _ _ _ _ _ _ _ _ _ _ _ (by norm_num) (by norm_num) actL'_pays
example : presentValue (12/100) 340 3 ≠ 1000 := by decide +kernel

/-- **C159.** Conversely the fair payment is what the constructor works out. -/
theorem C159_unique (name b l t : Str) (am rate : ℚ) (start interval : Int) (d : Nat) (descr : Option Str) (p : ℚ) (hr : 0 < rate) (hd : 0 < d) (hp : presentValue rate p d = am) :
    ∃ a, LoanPays name b l t am rate start d interval descr a p := by
  obtain ⟨a, ha⟩ := (C21_constructible_partial name b l t am rate start d interval descr).2 hr (by omega)
  obtain ⟨q, hq, he⟩ := loan_pays ha hr hd
  rw [presentValue_eq] at hp
  have h0 : annuity (1 / (1 + rate / 12)) d ≠ 0 := (annuity_pos (by positivity) hd).ne'
  have : p = q := mul_right_cancel₀ h0 (hp.trans he.symm)
  exact ⟨a, ha, by rw [this]; exact hq⟩

/-- the payments for one month and for three -/
example : presentValue (12/100) 1010 1 = 1000 ∧ presentValue (12/100) pay3 3 = 1000 := by decide +kernel

theorem discount {rate : ℚ} (hr : 0 < rate) : 0 < 1 / (1 + rate / 12) ∧ 1 / (1 + rate / 12) < 1 := by
  have : 0 < rate / 12 := by positivity
  refine ⟨by positivity, ?_⟩
  rw [div_lt_one (by linarith)]; linarith

/-- **C159.** The payment is more than the amount divided by the number of months and more than the first month's interest, and not more than the sum of the two. -/
theorem C159_bounds (name b l t : Str) (am rate : ℚ) (start interval : Int) (d : Nat) (descr : Option Str) (a : Activity) (p : ℚ) (hr : 0 < rate) (ha : 0 < am) (hd : 0 < d)
    (h : LoanPays name b l t am rate start d interval descr a p) : am / d < p ∧ am * rate / 12 < p ∧ p ≤ am / d + am * rate / 12 := by
  have hf := C159_fair name b l t am rate start interval d descr a p hr hd h
  rw [presentValue_eq] at hf
  obtain ⟨v0, v1⟩ := discount hr
  have h1 : (1 : ℚ) + rate / 12 ≠ 0 := by positivity
  have hc := annuity_closed (rate / 12) h1 d
  set v := 1 / (1 + rate / 12) with hv
  have a0 := annuity_pos v0 hd
  have hp : 0 < p := by by_contra hn; have := mul_nonpos_of_nonpos_of_nonneg (not_lt.1 hn) a0.le; linarith
  have d0 : (0 : ℚ) < d := by exact_mod_cast hd
  have hlt : annuity v d < d := by
    have : ∀ k : Nat, 0 < k → annuity v k < k := by
      intro k hk
      induction k with
      | zero => omega
      | succ k ih =>
        rw [annuity]
        have : v ^ (k + 1) < 1 := pow_lt_one₀ v0.le v1 (by omega)
        push_cast
        rcases Nat.eq_zero_or_pos k with rfl | hk
        · simpa [annuity] using v1
        · have := ih hk; linarith
    exact this d hd
  have hge := annuity_ge v0 v1 d d (le_refl _)
  have vd := pow_pos v0 d
  refine ⟨?_, ?_, ?_⟩
  · rw [div_lt_iff₀ d0, ← hf]; exact mul_lt_mul_of_pos_left hlt hp
  · rw [← hf]
    have : p * annuity v d * rate / 12 = p * (rate / 12 * annuity v d) := by ring
    rw [this, hc]
    nlinarith
  · rw [← hf]
    have e : p * annuity v d / d + p * annuity v d * rate / 12 = p * (annuity v d / d + rate / 12 * annuity v d) := by ring
    rw [e, hc]
    have : v ^ d ≤ annuity v d / d := by rw [le_div_iff₀ d0]; linarith
    nlinarith

example : (1000 : ℚ) / 3 < pay3 ∧ (10 : ℚ) < pay3 ∧ pay3 ≤ 1000 / 3 + 10 := by decide +kernel

/-- **C159.** At a higher rate the payment is higher. -/
theorem C159_rate (name b l t name' b' l' t' : Str) (am rate rate' : ℚ) (start interval start' interval' : Int) (d : Nat) (descr descr' : Option Str) (a a' : Activity) (p p' : ℚ)
    (hr : 0 < rate) (hrr : rate < rate') (ha : 0 < am) (hd : 0 < d)
    (h : LoanPays name b l t am rate start d interval descr a p) (h' : LoanPays name' b' l' t' am rate' start' d interval' descr' a' p') : p < p' := by
  have hf := C159_fair name b l t am rate start interval d descr a p hr hd h
  have hf' := C159_fair name' b' l' t' am rate' start' interval' d descr' a' p' (by linarith) hd h'
  rw [presentValue_eq] at hf hf'
  obtain ⟨v0, -⟩ := discount (rate := rate') (by linarith)
  obtain ⟨w0, -⟩ := discount hr
  have hlt : 1 / (1 + rate' / 12) < 1 / (1 + rate / 12) := one_div_lt_one_div_of_lt (by positivity) (by linarith)
  have hl := annuity_lt v0 hlt hd
  have a0 := annuity_pos v0 hd
  by_contra hn
  push Not at hn
  have hp' : 0 < p' := by by_contra hn; have := mul_nonpos_of_nonpos_of_nonneg (not_lt.1 hn) a0.le; linarith
  nlinarith

/-- 12 % and 24 % -/
example : ∃ p, LoanPays [] [] [] [] 1000 (24/100) dtMin 3 1 none ((newLoan [] [] [] [] 1000 (24/100) dtMin 3 1 none).toOption.getD actL') p ∧ pay3 < p :=
  ⟨20 / (1 - 1 / (102/100) ^ 3), ⟨by decide +kernel, by decide +kernel⟩, by decide +kernel⟩

/-- **C159.** Over a longer time the payment is lower, but all payments together are more. -/
theorem C159_duration (name b l t name' b' l' t' : Str) (am rate : ℚ) (start interval start' interval' : Int) (d d' : Nat) (descr descr' : Option Str) (a a' : Activity) (p p' : ℚ)
    (hr : 0 < rate) (ha : 0 < am) (hd : 0 < d) (hdd : d < d')
    (h : LoanPays name b l t am rate start d interval descr a p) (h' : LoanPays name' b' l' t' am rate start' d' interval' descr' a' p') : p' < p ∧ d * p < d' * p' := by
  have hf := C159_fair name b l t am rate start interval d descr a p hr hd h
  have hf' := C159_fair name' b' l' t' am rate start' interval' d' descr' a' p' hr (by omega) h'
  rw [presentValue_eq] at hf hf'
  obtain ⟨v0, v1⟩ := discount hr
  set v := 1 / (1 + rate / 12) with hv
  have hm := annuity_mono v0 hdd
  have hv := annuity_avg v0 v1 hd hdd
  have a0 := annuity_pos v0 hd
  have a1 := annuity_pos (d := d') v0 (by omega)
  have e : p = am / annuity v d := by rw [eq_div_iff a0.ne']; exact hf
  have e' : p' = am / annuity v d' := by rw [eq_div_iff a1.ne']; exact hf'
  rw [e, e']
  refine ⟨div_lt_div_of_pos_left ha a0 hm, ?_⟩
  rw [mul_div_assoc', mul_div_assoc', div_lt_div_iff₀ a0 a1]
  nlinarith

/-- three months and six -/
example : ∃ p, LoanPays [] [] [] [] 1000 (12/100) dtMin 6 1 none ((newLoan [] [] [] [] 1000 (12/100) dtMin 6 1 none).toOption.getD actL') p ∧ p < pay3 ∧ 3 * pay3 < 6 * p :=
  ⟨10 / (1 - 1 / (101/100) ^ 6), ⟨by decide +kernel, by decide +kernel⟩, by decide +kernel, by decide +kernel⟩

/-! ## In the ledger -/

/-- what a loan books by period `n` -/
theorem loan_books (a : Activity) (clk : Clock) (b l t : Str) (am r p : ℚ) (d m : Int) (lf : ℚ) (hk : a.kind = .loan b l t am r p d m lf) (hbl : b ≠ l) (htl : t ≠ l) (hbt : b ≠ t) (n : Nat) :
    debited t ((List.range n).flatMap (fun i => txsAt clk a i)) = (List.range (execsBefore a n - 1)).map (fun j => outstanding am r p j * r / 12) ∧
    debited l ((List.range n).flatMap (fun i => txsAt clk a i)) = List.replicate (execsBefore a n - 1) p ∧
    credits b ((List.range n).flatMap (fun i => txsAt clk a i)) = (execsBefore a n - 1 : Nat) * p := by
  induction n with
  | zero => simp [execsBefore_zero, debited, credits]
  | succ n ih =>
    obtain ⟨i1, i2, i3⟩ := ih
    have hs := execsBefore_succ a n
    rw [List.range_succ, List.flatMap_append]
    have hdu := due_meets a n
    cases hm : a.meets n with
    | false =>
      rw [hm, decide_eq_false_iff_not] at hdu
      simp only [hm, Bool.false_eq_true, if_false, Nat.add_zero] at hs
      have ht : txsAt clk a n = [] := by simp [txsAt, hdu]
      simp only [List.flatMap_cons, List.flatMap_nil, List.append_nil, ht, hs]
      exact ⟨i1, i2, i3⟩
    | true =>
      rw [hm, decide_eq_true_iff] at hdu
      simp only [hm, if_true] at hs
      generalize hT : (List.range n).flatMap (fun i => txsAt clk a i) = T at i1 i2 i3
      simp only [List.flatMap_cons, List.flatMap_nil, List.append_nil]
      rw [hs]
      cases hj : execsBefore a n with
      | zero =>
        rw [hj] at i1 i2 i3
        have e1 : debited t (T ++ txsAt clk a n) = debited t T := by simp [txsAt, hdu, hk, hj, debited, hbt]
        have e2 : debited l (T ++ txsAt clk a n) = debited l T := by simp [txsAt, hdu, hk, hj, debited, hbl]
        have e3 : credits b (T ++ txsAt clk a n) = credits b T := by simp [txsAt, hdu, hk, hj, credits, hbl.symm]
        rw [e1, e2, e3, i1, i2, i3]
        simp
      | succ j =>
        rw [hj] at i1 i2 i3
        have e1 : debited t (T ++ txsAt clk a n) = debited t T ++ [outstanding am r p j * r / 12] := by simp [txsAt, hdu, hk, hj, debited, htl.symm]
        have e2 : debited l (T ++ txsAt clk a n) = debited l T ++ [p] := by simp [txsAt, hdu, hk, hj, debited, htl]
        have e3 : credits b (T ++ txsAt clk a n) = credits b T + p := by simp [txsAt, hdu, hk, hj, credits, hbl.symm]
        rw [e1, e2, e3, i1, i2, i3]
        simp only [Nat.add_sub_cancel]
        refine ⟨by rw [List.range_succ, List.map_append]; rfl, by rw [List.replicate_succ'], by push_cast; ring⟩

/-- **C159 (in the ledger).** A loan repaid in a run: interest is booked once for every month of the duration, every time a positive amount and less than the time before; the same payment is made in each of these months; and all interest together is what is paid more than the amount of the loan. -/
theorem C159_ledger (name b l t : Str) (am rate : ℚ) (d : Nat) (descr : Option Str) (a : Activity) (clk : Clock) (n : Nat) (p : ℚ)
    (h : LoanPays name b l t am rate clk.start d 1 descr a p) (hr : 0 < rate) (ha : 0 < am) (hd : 0 < d)
    (hm : clk.duration = .month) (hs : clk.start ≠ dtMin) (hmax : addMonths clk.start (d + 1) ≠ dtMax) (hn : d + 2 ≤ n)
    (hbl : b ≠ l) (htl : t ≠ l) (hbt : b ≠ t) :
    let txs := (runFor clk (a.prepare clk n) n).2
    (debited t txs).length = d ∧ (∀ x ∈ debited t txs, 0 < x) ∧ (debited t txs).Pairwise (· > ·) ∧ debited l txs = List.replicate d p ∧
      debits t txs = d * p - am ∧ 0 < debits t txs := by
  obtain ⟨q, hk, hz, hpos, hdec⟩ := C20_repaid name b l t am rate clk.start 1 d descr a h.1 hr ha hd
  have hpq : p = q := by
    have := h.2.symm.trans hk
    simpa only [Kind.loan.injEq, true_and, and_true] using this
  subst hpq
  obtain ⟨x1, x2, x3⟩ := C20_run name b l t am rate d descr a clk n h.1 hr ha hd hm hs hmax hn hbl htl hbt
  have hkp : (a.prepare clk n).kind = .loan b l t am rate p d 0 am := by simp [Activity.prepare, hk, Kind.reset]
  have hl0 : ∀ b l t am r p d m lf, (a.prepare clk n).kind = .loan b l t am r p d m lf → m = 0 ∧ lf = am := by
    intro b l t am r p d m lf h; rw [hkp] at h; simp only [Kind.loan.injEq] at h
    exact ⟨by simp [h], by rw [← h.2.2.2.1]; exact h.2.2.2.2.2.2.2.2.symm⟩
  have hi : (a.prepare clk n).interval = 1 := by
    have h1 := h.1
    unfold newLoan at h1
    split at h1
    · simp at h1
    · simp only [Except.ok.injEq] at h1; subst h1; rfl
  obtain ⟨m, lf, f1, f2, f3, f4⟩ := C19_loan_balance (a.prepare clk n) clk n b l t am rate p d hkp (by omega) hbl htl hbt (by omega)
  have hrun := runFor_eq clk (a.prepare clk n) n (stateAt_zero hl0) (fun _ _ _ _ _ _ _ _ _ _ => by omega)
  obtain ⟨y1, y2, y3⟩ := loan_books (a.prepare clk n) clk b l t am rate p d 0 am hkp hbl htl hbt n
  have hrun2 := congrArg Prod.snd hrun
  dsimp only at hrun2
  rw [← hrun2, x1] at y1 y2 y3
  simp only [Nat.add_sub_cancel] at y1 y2 y3
  have hsum : debits t (runFor clk (a.prepare clk n) n).2 = d * p - am := by
    rw [f2] at x2
    rw [x2, f4, y3] at f3
    linarith
  have hpl : ∀ x ∈ debited t (runFor clk (a.prepare clk n) n).2, 0 < x := by
    rw [y1]
    intro x hx
    obtain ⟨j, hj, rfl⟩ := List.mem_map.1 hx
    have := hpos j (List.mem_range.1 hj)
    positivity
  refine ⟨by rw [y1]; simp, hpl, ?_, y2, hsum, ?_⟩
  · rw [y1, List.pairwise_map]
    refine List.Pairwise.imp ?_ List.pairwise_lt_range
    intro i j hij
    have : ∀ j, i < j → outstanding am rate p j < outstanding am rate p i := by
      intro j hj
      induction j with
      | zero => omega
      | succ k ih =>
        have h2 := hdec k
        rcases Nat.lt_succ_iff_lt_or_eq.1 hj with h1 | rfl
        · exact h2.trans (ih h1)
        · exact h2
    have := this j hij
    show _ < _
    have hr12 : 0 < rate / 12 := by positivity
    have := mul_lt_mul_of_pos_right this hr12
    linarith
  · rw [hsum]
    have := (C159_bounds name b l t am rate clk.start 1 d descr a p hr ha hd h).1
    have d0 : (0 : ℚ) < d := by exact_mod_cast hd
    rw [div_lt_iff₀ d0] at this
    linarith

/-- the loan of the examples: interest is booked three times, starting with 10 -/
example : clkM.duration = .month ∧ clkM.start ≠ dtMin ∧ addMonths clkM.start (3 + 1) ≠ dtMax ∧
    (debited "Expense/Interest".toList (runFor clkM (actL'.prepare clkM 9) 9).2).head? = some 10 ∧
    (debited "Expense/Interest".toList (runFor clkM (actL'.prepare clkM 9) 9).2).length = 3 :=
  ⟨rfl, by decide, by decide, by decide +kernel, by decide +kernel⟩

/-- **C159 (in the ledger).** The interest booked for a loan of the same amount is more at a higher rate, and more over a longer time. -/
theorem C159_cost (name b l t name' b' l' t' : Str) (am rate rate' : ℚ) (d d' : Nat) (descr descr' : Option Str) (a a' : Activity) (clk : Clock) (n n' : Nat)
    (h : newLoan name b l t am rate clk.start d 1 descr = .ok a) (h' : newLoan name' b' l' t' am rate' clk.start d' 1 descr' = .ok a')
    (hr : 0 < rate) (ha : 0 < am) (hd : 0 < d) (hcmp : (rate < rate' ∧ d = d') ∨ (rate = rate' ∧ d < d'))
    (hm : clk.duration = .month) (hs : clk.start ≠ dtMin) (hmax : addMonths clk.start (d + 1) ≠ dtMax ∧ addMonths clk.start (d' + 1) ≠ dtMax) (hn : d + 2 ≤ n) (hn' : d' + 2 ≤ n')
    (hb : b ≠ l ∧ t ≠ l ∧ b ≠ t) (hb' : b' ≠ l' ∧ t' ≠ l' ∧ b' ≠ t') :
    debits t (runFor clk (a.prepare clk n) n).2 < debits t' (runFor clk (a'.prepare clk n') n').2 := by
  have hr' : 0 < rate' := by rcases hcmp with h | h <;> linarith [h.1]
  have hd' : 0 < d' := by rcases hcmp with h | h <;> omega
  obtain ⟨p, hp, _⟩ := loan_pays h hr hd
  obtain ⟨p', hp', _⟩ := loan_pays h' hr' hd'
  rw [(C159_ledger name b l t am rate d descr a clk n p ⟨h, hp⟩ hr ha hd hm hs hmax.1 hn hb.1 hb.2.1 hb.2.2).2.2.2.2.1,
    (C159_ledger name' b' l' t' am rate' d' descr' a' clk n' p' ⟨h', hp'⟩ hr' ha hd' hm hs hmax.2 hn' hb'.1 hb'.2.1 hb'.2.2).2.2.2.2.1]
  have : (d : ℚ) * p < d' * p' := by
    rcases hcmp with ⟨c1, rfl⟩ | ⟨rfl, c2⟩
    · have := C159_rate name b l t name' b' l' t' am rate rate' clk.start 1 clk.start 1 d descr descr' a a' p p' hr c1 ha hd ⟨h, hp⟩ ⟨h', hp'⟩
      exact mul_lt_mul_of_pos_left this (by exact_mod_cast hd)
    · exact (C159_duration name b l t name' b' l' t' am rate clk.start 1 clk.start 1 d d' descr descr' a a' p p' hr ha hd c2 ⟨h, hp⟩ ⟨h', hp'⟩).2
  linarith

/-- three months and six, in runs of nine and twelve months -/
example : ∃ a', newLoan ['n'] ['b'] ['l'] ['t'] 1000 (12/100) clkM.start 6 1 none = .ok a' ∧
    debits "Expense/Interest".toList (runFor clkM (actL'.prepare clkM 9) 9).2 < debits ['t'] (runFor clkM (a'.prepare clkM 12) 12).2 ∧ addMonths clkM.start (6 + 1) ≠ dtMax :=
  ⟨(newLoan ['n'] ['b'] ['l'] ['t'] 1000 (12/100) clkM.start 6 1 none).toOption.getD actL', by decide +kernel, by decide +kernel, by decide⟩

end Auxi.Business.Props
