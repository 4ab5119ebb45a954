import Verif.Proofs.LoanFloat

/-! # C125: loans on a machine with floating point numbers -/
namespace Auxi.LoanFloat.Props
open Auxi Auxi.Business Auxi.Business.Spec Auxi.Business.Props Auxi.Rounding Auxi.LoanFloat.Spec Auxi.Time Auxi.Calendar

variable {rnd : ℚ → ℚ} {u η : ℚ}

/-- **C125 (same program).** Without rounding the loan is that of the model of C19 to C21. -/
theorem C125_same (name b l t : Str) (am rate : ℚ) (start d interval : Int) (descr : Option Str) (clk : Clock) (a : Activity) :
    newLoanF id (fun x d => x ^ d) name b l t am rate start d interval descr = newLoan name b l t am rate start d interval descr ∧ runF id clk a = a.run clk := by
  constructor
  · unfold newLoanF newLoan
    have : paymentF id (fun x d => x ^ d) am rate d = monthlyPayment am rate d := by
      unfold paymentF monthlyPayment
      simp only [id]
      by_cases h : 1 + rate / 12 = 0
      · simp [h]
      · rw [if_neg h, if_neg h, if_neg (zpow_ne_zero d h)]
    rw [this]
    cases monthlyPayment am rate d <;> rfl
  · rfl

/-! ## Only amounts are affected -/

/-- `x` and `y` differ at most in the progress of the repayment. -/
def SameBut (x y : Activity) : Prop := x = y ∨ ∃ b l t am r p d m lf lf', y.kind = .loan b l t am r p d m lf ∧ x = { y with kind := .loan b l t am r p d m lf' }

theorem sameBut_run {x y : Activity} (h : SameBut x y) (clk : Clock) : SameBut (runF rnd clk x).1 (y.run clk).1 ∧ List.Forall₂ SameButAmount (runF rnd clk x).2 (y.run clk).2 := by
  have key : ∀ b l t am r p d m lf lf', y.kind = .loan b l t am r p d m lf → x = { y with kind := .loan b l t am r p d m lf' } →
      SameBut (runF rnd clk x).1 (y.run clk).1 ∧ List.Forall₂ SameButAmount (runF rnd clk x).2 (y.run clk).2 := by
    intro b l t am r p d m lf lf' hk hx
    have hm : x.meets clk.ix = y.meets clk.ix := by
      rw [hx]; unfold Activity.meets Activity.meetsBase; simp only [hk]
    have hxk : x.kind = .loan b l t am r p d m lf' := by rw [hx]
    unfold runF Activity.run
    rw [hm]
    split
    · exact ⟨.inr ⟨b, l, t, am, r, p, d, m, lf, lf', hk, hx⟩, .nil⟩
    · simp only [hk, hxk]
      split
      · refine ⟨.inr ⟨b, l, t, am, r, p, d, _, lf, lf', rfl, by rw [hx]⟩, .cons ?_ .nil⟩
        rw [hx]; rfl
      · refine ⟨.inr ⟨b, l, t, am, r, p, d, _, _, _, rfl, by rw [hx]⟩, .cons ?_ (.cons ?_ .nil)⟩ <;> (rw [hx]; rfl)
  rcases h with rfl | ⟨b, l, t, am, r, p, d, m, lf, lf', hk, hx⟩
  · cases hk : x.kind with
    | loan b l t am r p d m lf => exact key b l t am r p d m lf lf hk (by rw [← hk])
    | basic am dt cr =>
      unfold runF Activity.run
      split
      · exact ⟨.inl rfl, .nil⟩
      · simp only [hk]
        exact ⟨.inl rfl, .cons rfl .nil⟩
  · exact key b l t am r p d m lf lf' hk hx

/-- **C125 (schedule).** Whatever the machine's arithmetic, a run makes the same transactions as with exact numbers, on the same dates between the same accounts, up to their amounts. -/
theorem C125_schedule (clk : Clock) (a : Activity) (n : Nat) : List.Forall₂ SameButAmount (runForF rnd clk a n).2 (runFor clk a n).2 := by
  have : SameBut (runForF rnd clk a n).1 (runFor clk a n).1 ∧ List.Forall₂ SameButAmount (runForF rnd clk a n).2 (runFor clk a n).2 := by
    induction n with
    | zero => exact ⟨.inl rfl, .nil⟩
    | succ n ih =>
      obtain ⟨i1, i2⟩ := ih
      obtain ⟨j1, j2⟩ := sameBut_run (rnd := rnd) i1 (clockAt clk n)
      exact ⟨j1, List.rel_append i2 j2⟩
  exact this.2

/-! ## The account -/

theorem run_state {a : Activity} {b l t : Str} {am r p : ℚ} {d : Int} (hk : a.kind = .loan b l t am r p d 0 am) (hint : a.interval ≠ 0) (hbl : b ≠ l) (htl : t ≠ l) (clk : Clock) (n : Nat) :
    (runForF rnd clk a n).1 = { a with kind := .loan b l t am r p d (execsBefore a n * a.interval) (owed rnd am r p (execsBefore a n - 1)) } ∧
    netCredit l (runForF rnd clk a n).2 = if execsBefore a n = 0 then 0 else recorded rnd am r p (execsBefore a n - 1) := by
  induction n with
  | zero =>
    simp only [runForF, execsBefore_zero]
    refine ⟨?_, by simp [netCredit]⟩
    simp only [Nat.cast_zero, zero_mul, Nat.zero_sub]
    change a = { a with kind := .loan b l t am r p d 0 am }
    rw [← hk]
  | succ n ih =>
    obtain ⟨i1, i2⟩ := ih
    have hs := execsBefore_succ a n
    set x := (runForF rnd clk a n).1 with hx
    have hm : x.meets (clockAt clk n).ix = a.meets n := by
      rw [i1]; unfold Activity.meets Activity.meetsBase; simp only [hk]; rfl
    have hxk : x.kind = .loan b l t am r p d (execsBefore a n * a.interval) (owed rnd am r p (execsBefore a n - 1)) := by rw [i1]
    simp only [runForF, ← hx]
    rw [netCredit_append, i2]
    cases hmi : a.meets n with
    | false =>
      simp only [hmi, Bool.false_eq_true, if_false, Nat.add_zero] at hs
      have : runF rnd (clockAt clk n) x = (x, []) := by unfold runF; rw [hm, hmi]; rfl
      rw [this, hs]
      exact ⟨i1, by simp [netCredit]⟩
    | true =>
      simp only [hmi, if_true] at hs
      cases hj : execsBefore a n with
      | zero =>
        rw [hj] at hs
        have : runF rnd (clockAt clk n) x = ({ a with kind := .loan b l t am r p d a.interval am }, [{ name := x.txName, description := some "Make a loan".toList, date := (clockAt clk n).now, dt := b, cr := l, source := x.path, amount := am }]) := by
          unfold runF; rw [hm, hmi]; simp only [Bool.true_eq_false, if_false, hxk, hj, Nat.cast_zero, zero_mul, if_true, owed, Nat.zero_sub, zero_add]
          rw [i1]
        rw [this, hs]
        refine ⟨?_, ?_⟩
        · simp [owed]
        · simp [netCredit, hbl, recorded]
      | succ j =>
        rw [hj] at hs
        have hne : ((j + 1 : Nat) : Int) * a.interval ≠ 0 := by
          apply Int.mul_ne_zero _ hint; omega
        have : runF rnd (clockAt clk n) x = ({ a with kind := .loan b l t am r p d (((j + 1 : Nat) : Int) * a.interval + a.interval) (owed rnd am r p (j + 1)) },
            [{ name := x.txName, description := some "Consider interest".toList, date := (clockAt clk n).now, dt := t, cr := l, source := x.path, amount := interestF rnd r (owed rnd am r p j) },
             { name := x.txName, description := some "Pay principle".toList, date := (clockAt clk n).now, dt := l, cr := b, source := x.path, amount := p }]) := by
          unfold runF; rw [hm, hmi]; simp only [Bool.true_eq_false, if_false, hxk, hj, Nat.add_sub_cancel]
          rw [if_neg hne, i1]
          rfl
        rw [this, hs]
        refine ⟨?_, ?_⟩
        · have e : ((j + 1 : Nat) : Int) * a.interval + a.interval = ((j + 1 + 1 : Nat) : Int) * a.interval := by push_cast; ring
          rw [e]; rfl
        · simp [netCredit, hbl, htl, recorded]
          ring

/-- **C125 (account).** After any number of periods in which the loan has been paid out and some instalments have been paid, the loan account and what the loan reckons to be owed are within
`drift` of the schedule of exact arithmetic with the same instalments, if that never owes more than `B`. -/
theorem C125_account (R : IEEE rnd u η) (hu : u ≤ 1 / 16) {a : Activity} {b l t : Str} {am r p B : ℚ} {d : Int} (hk : a.kind = .loan b l t am r p d 0 am) (hint : a.interval ≠ 0) (hbl : b ≠ l)
    (htl : t ≠ l) (clk : Clock) (n : Nat) (hex : 0 < execsBefore a n) (hr : 0 ≤ r) (ha : rnd am = am) (hp : rnd p = p) (hpB : |p| ≤ (1 + r / 12) * B)
    (hB : ∀ k < execsBefore a n - 1, |outstanding am r p k| ≤ B) :
    |netCredit l (runForF rnd clk a n).2 - outstanding am r p (execsBefore a n - 1)| ≤ drift u η (1 + r / 12) B (execsBefore a n - 1) ∧
    ∃ m left, (runForF rnd clk a n).1.kind = .loan b l t am r p d m left ∧ |left - outstanding am r p (execsBefore a n - 1)| ≤ drift u η (1 + r / 12) B (execsBefore a n - 1) := by
  obtain ⟨s1, s2⟩ := run_state (rnd := rnd) hk hint hbl htl clk n
  obtain ⟨m1, m2⟩ := months_err R hu hr ha hp hpB (execsBefore a n - 1) hB
  rw [s2, if_neg hex.ne']
  exact ⟨m2, _, _, by rw [s1], m1⟩

/-- The exact schedule with instalments that are a little off. -/
theorem outstanding_off {A rate M M' : ℚ} (hr : 0 < rate) : ∀ k, outstanding A rate M k = outstanding A rate M' k - (M - M') * (((1 + rate / 12) ^ k - 1) / (rate / 12))
  | 0 => by simp [outstanding]
  | k + 1 => by
    have : rate / 12 ≠ 0 := by positivity
    have ih := outstanding_off (A := A) (M := M) (M' := M') hr k
    rw [outstanding, outstanding, ih, pow_succ]
    field_simp
    ring

/-- The schedule of exact instalments: between nothing and everything is owed, and one instalment is at most the amount with one month's interest. -/
theorem exact_facts {A rate M' : ℚ} {d : ℕ} (hr : 0 < rate) (hA : 0 < A) (hd : 0 < d) (hp : monthlyPayment A rate d = .ok M') :
    (∀ k ≤ d, 0 ≤ outstanding A rate M' k ∧ outstanding A rate M' k ≤ A ∧ M' * (((1 + rate / 12) ^ k - 1) / (rate / 12)) ≤ A * (1 + rate / 12) ^ k) ∧ outstanding A rate M' d = 0 ∧
    M' ≤ (1 + rate / 12) * A := by
  have r0 : 0 < rate / 12 := by positivity
  have hz := ((outstanding_other hr hA hd hp d).1).2 rfl
  have hnn : ∀ k ≤ d, 0 ≤ outstanding A rate M' k := by
    intro k hk
    rcases Nat.lt_or_eq_of_le hk with h | h
    · exact ((outstanding_other hr hA hd hp k).2.1 h).le
    · rw [h, hz]
  have h0 : ∀ k, outstanding A rate M' k = A * (1 + rate / 12) ^ k - M' * (((1 + rate / 12) ^ k - 1) / (rate / 12)) := by
    intro k
    have := outstanding_off (A := A) (M := M') (M' := 0) hr k
    rw [this]
    congr 1
    · induction k with
      | zero => simp [outstanding]
      | succ k ih => rw [outstanding, ih (outstanding_off hr k), pow_succ]; ring
    · ring
  have hM1 : M' ≤ (1 + rate / 12) * A := by
    have h1 := hnn 1 hd
    have : outstanding A rate M' 1 = A * (1 + rate / 12) - M' := rfl
    linarith
  have hstep : ∀ k, k ≤ d → outstanding A rate M' k ≤ A := by
    -- the instalment exceeds the interest on the whole amount, otherwise nothing would ever be repaid
    have hint : A * (rate / 12) ≤ M' := by
      by_contra hc
      push Not at hc
      have : ∀ k, A ≤ outstanding A rate M' k := by
        intro k
        induction k with
        | zero => exact le_rfl
        | succ k ih => rw [outstanding]; nlinarith
      have := this d
      rw [hz] at this
      linarith
    intro k
    induction k with
    | zero => intro _; exact le_rfl
    | succ k ih =>
      intro hk
      have := ih (by omega)
      rw [outstanding]
      nlinarith
  refine ⟨fun k hk => ⟨hnn k hk, hstep k hk, ?_⟩, hz, hM1⟩
  have := hnn k hk
  rw [h0 k] at this
  linarith

/-- **C125 (repaid).** A monthly loan that starts with the clock is repaid when its time is up, to within `tol` of the amount at compound interest and the `drift` of its account. -/
theorem C125_repaid (R : IEEE rnd u η) {pw : ℚ → ℤ → ℚ} {v : ℚ} (hv0 : 0 ≤ v) (hv : v ≤ 1 / 16) (hp : GoodPow pw v) (name b l t : Str) (A rate : ℚ) (d : Nat) (descr : Option Str)
    (clk : Clock) (n : Nat) (hd : 0 < d) (hA : 0 < A) (hAf : rnd A = A) (hrate : 0 < rate) (hdu : 16 * d * u ≤ 1) (h1 : η ≤ u * (rate / 12)) (h2 : η ≤ u * (A * (rate / 12)))
    (h3 : η ≤ u * (1 / (1 + rate / 12) ^ d)) (ht : tol u v (1 + rate / 12) d ≤ 1 / 4) (ht' : tol u v (1 + rate / 12) d * (1 + rate / 12) ^ d ≤ 1)
    (hm : clk.duration = .month) (hs : clk.start ≠ dtMin) (hmax : addMonths clk.start (d + 1) ≠ dtMax) (hn : d + 2 ≤ n) (hbl : b ≠ l) (htl : t ≠ l) :
    ∃ a, newLoanF rnd pw name b l t A rate clk.start d 1 descr = .ok a ∧
      |netCredit l (runForF rnd clk (a.prepare clk n) n).2| ≤ tol u v (1 + rate / 12) d * (1 + rate / 12) ^ d * A + drift u η (1 + rate / 12) (2 * A) d := by
  obtain ⟨M, M', p1, p2, p3, p4, p5⟩ := payment_err R hv0 hv hp hd hA hrate hdu h1 h2 h3 ht
  have u0 := R.u0
  have d1 : (1 : ℚ) ≤ d := by exact_mod_cast hd
  have hu : u ≤ 1 / 16 := by nlinarith
  have r0 : 0 < rate / 12 := by positivity
  set τ := tol u v (1 + rate / 12) d with hτ
  refine ⟨_, by unfold newLoanF; rw [p1], ?_⟩
  set a := Activity.new name clk.start (addMonths clk.start (d + 1)) 1 descr (.loan b l t A rate M d 0 A) with ha
  have hk : (a.prepare clk n).kind = .loan b l t A rate M d 0 A := rfl
  have hact : Active (a.prepare clk n) := by simp [Active, hk, hA, hd]
  have he := loan_execs (a := a) (clk := clk) (n := n) (d := d) rfl rfl ⟨rfl, rfl⟩ hm hs hmax hn rfl hact
  obtain ⟨f1, f2, f3⟩ := exact_facts hrate hA hd p2
  have τ0 : 0 ≤ τ := by
    by_contra hc
    push Not at hc
    have := abs_nonneg (M - M')
    nlinarith
  have hoff : ∀ k ≤ d, |outstanding A rate M k - outstanding A rate M' k| ≤ τ * (1 + rate / 12) ^ d * A := by
    intro k hkd
    rw [outstanding_off hrate k, sub_sub_cancel_left, abs_neg, abs_mul]
    have hpk : 0 ≤ ((1 + rate / 12) ^ k - 1) / (rate / 12) := div_nonneg (by linarith [one_le_pow₀ (n := k) (by linarith : (1 : ℚ) ≤ 1 + rate / 12)]) r0.le
    rw [abs_of_nonneg hpk]
    have a1 := mul_le_mul_of_nonneg_right p5 hpk
    have a2 := (f1 k hkd).2.2
    have a3 : (1 + rate / 12) ^ k ≤ (1 + rate / 12) ^ d := pow_le_pow_right₀ (by linarith) hkd
    have a4 : τ * (M' * (((1 + rate / 12) ^ k - 1) / (rate / 12))) ≤ τ * (A * (1 + rate / 12) ^ d) :=
      mul_le_mul_of_nonneg_left (a2.trans (mul_le_mul_of_nonneg_left a3 hA.le)) τ0
    linarith
  have hB : ∀ k < d, |outstanding A rate M k| ≤ 2 * A := by
    intro k hkd
    have b1 := hoff k hkd.le
    obtain ⟨b2, b3, _⟩ := f1 k hkd.le
    have b4 : τ * (1 + rate / 12) ^ d * A ≤ 1 * A := mul_le_mul_of_nonneg_right ht' hA.le
    rw [abs_le] at b1 ⊢
    constructor <;> linarith
  have hpB : |M| ≤ (1 + rate / 12) * (2 * A) := by
    have c1 : τ * M' ≤ 1 * M' := mul_le_mul_of_nonneg_right (by linarith) p3.le
    rw [abs_le] at p5 ⊢
    constructor <;> nlinarith
  have hacc := (C125_account R hu hk (by change (1 : Int) ≠ 0; norm_num) hbl htl clk n (by rw [he]; omega) hrate.le hAf p4 hpB (by rw [he, Nat.add_sub_cancel]; exact hB)).1
  rw [he, Nat.add_sub_cancel] at hacc
  have hfin := hoff d le_rfl
  rw [f2, sub_zero] at hfin
  have := abs_add_le (netCredit l (runForF rnd clk (a.prepare clk n) n).2 - outstanding A rate M d) (outstanding A rate M d)
  rw [sub_add_cancel] at this
  linarith

/-! ## Python's floats -/

/-- **C125 (cents).** With Python's floats and a power function that is right to within one unit in the last place: a loan of up to a million, at a rate between 1 % and 20 %, over up to forty
years, is repaid to within half a cent. -/
theorem C125_cents {pw : ℚ → ℤ → ℚ} (hp : GoodPow pw (pow2 (-52))) (name b l t : Str) (A rate : ℚ) (d : Nat) (descr : Option Str) (clk : Clock) (n : Nat) (hd : 0 < d) (hd' : d ≤ 480)
    (hA : 1 ≤ A) (hA' : A ≤ 1000000) (hAf : rnd64 A = A) (hrate : 1 / 100 ≤ rate) (hrate' : rate ≤ 1 / 5) (hm : clk.duration = .month) (hs : clk.start ≠ dtMin)
    (hmax : addMonths clk.start (d + 1) ≠ dtMax) (hn : d + 2 ≤ n) (hbl : b ≠ l) (htl : t ≠ l) :
    ∃ a, newLoanF rnd64 pw name b l t A rate clk.start d 1 descr = .ok a ∧ |netCredit l (runForF rnd64 clk (a.prepare clk n) n).2| < 1 / 200 := by
  have hu : pow2 (-53) = 1 / 9007199254740992 := by decide +kernel
  have hv : pow2 (-52) = 1 / 4503599627370496 := by decide +kernel
  have hη : pow2 (-1075) ≤ 1 / 10 ^ 30 := by decide +kernel
  have hη0 : 0 < pow2 (-1075) := pow2_pos _
  have d1 : (1 : ℚ) ≤ d := by exact_mod_cast hd
  have d480 : (d : ℚ) ≤ 480 := by exact_mod_cast hd'
  set r := rate / 12 with hr
  have r1 : 1 / 1200 ≤ r := by linarith
  have r2 : r ≤ 1 / 60 := by linarith
  set G := (1 + r) ^ d with hG
  have hG1 : G ≤ 2800 := by
    have a1 : G ≤ (61 / 60) ^ d := pow_le_pow_left₀ (by linarith) (by linarith) d
    have a2 : (61 / 60 : ℚ) ^ d ≤ (61 / 60) ^ 480 := pow_le_pow_right₀ (by norm_num) hd'
    have a3 : (61 / 60 : ℚ) ^ 480 ≤ 2800 := by decide +kernel
    linarith
  have hG2 : 1 + d * r ≤ G := one_add_mul_le_pow (by linarith) d
  have hdr : d * (1 / 1200) ≤ d * r := mul_le_mul_of_nonneg_left r1 (by linarith)
  have hGp : 0 < G - 1 := by linarith
  -- the tolerance
  have hq : (80 * d * pow2 (-53) + 16 * pow2 (-52)) / (G - 1) ≤ 134400 * pow2 (-53) := by
    rw [div_le_iff₀ hGp, hu, hv]
    have : d * (1 / 1200) * (134400 * (1 / 9007199254740992)) ≤ (G - 1) * (134400 * (1 / 9007199254740992)) := mul_le_mul_of_nonneg_right (by linarith) (by norm_num)
    linarith
  have ht1 : tol (pow2 (-53)) (pow2 (-52)) (1 + r) d ≤ 134416 * pow2 (-53) := by
    unfold tol; rw [← hG]; linarith
  have hq2 : (80 * d * pow2 (-53) + 16 * pow2 (-52)) / (G - 1) * G ≤ 200000 * pow2 (-53) := by
    have e : (80 * d * pow2 (-53) + 16 * pow2 (-52)) / (G - 1) * G = (80 * d * pow2 (-53) + 16 * pow2 (-52)) + (80 * d * pow2 (-53) + 16 * pow2 (-52)) / (G - 1) := by
      field_simp; ring
    rw [e]
    have : 80 * (d : ℚ) * pow2 (-53) + 16 * pow2 (-52) ≤ 40000 * pow2 (-53) := by rw [hu, hv]; linarith
    rw [hu] at this hq ⊢
    linarith
  have ht2 : tol (pow2 (-53)) (pow2 (-52)) (1 + r) d * G ≤ 300000 * pow2 (-53) := by
    unfold tol; rw [← hG, add_mul]
    have : 16 * pow2 (-53) * G ≤ 16 * pow2 (-53) * 2800 := mul_le_mul_of_nonneg_left hG1 (by rw [hu]; norm_num)
    linarith
  have hGpos : 0 < G := by linarith
  have hrate0 : 0 < rate := by linarith
  obtain ⟨a, a1, a2⟩ := C125_repaid (u := pow2 (-53)) (η := pow2 (-1075)) ieee64 (pow2_pos _).le (by rw [hv]; norm_num) hp name b l t A rate d descr clk n hd (by linarith) hAf hrate0
    (by rw [hu]; linarith) (by rw [hu, ← hr]; linarith)
    (by
      rw [hu, ← hr]
      have : 1 * (1 / 1200 : ℚ) ≤ A * r := mul_le_mul hA r1 (by norm_num) (by linarith)
      linarith)
    (by
      rw [hu, ← hr, ← hG]
      have : 1 / 2800 ≤ 1 / G := one_div_le_one_div_of_le hGpos hG1
      linarith)
    (by rw [← hr]; refine ht1.trans ?_; rw [hu]; norm_num) (by rw [← hr, ← hG]; refine ht2.trans ?_; rw [hu]; norm_num) hm hs hmax hn hbl htl
  refine ⟨a, a1, lt_of_le_of_lt a2 ?_⟩
  rw [← hr, ← hG]
  have b1 : tol (pow2 (-53)) (pow2 (-52)) (1 + r) d * G * A ≤ 300000 * pow2 (-53) * 1000000 :=
    (mul_le_mul_of_nonneg_right ht2 (by linarith)).trans (mul_le_mul_of_nonneg_left hA' (by rw [hu]; norm_num))
  have b2 : drift (pow2 (-53)) (pow2 (-1075)) (1 + r) (2 * A) d ≤ 480 * (18 * pow2 (-53) * 1000000 + 3 / 10 ^ 30) * (2800 * (101 / 100)) := by
    unfold drift
    rw [mul_pow, ← hG]
    have c1 : (1 + 6 * pow2 (-53)) ^ d ≤ 101 / 100 := by
      have := pow_one_add_le (y := 6 * pow2 (-53)) (by rw [hu]; norm_num) d (by rw [hu]; linarith)
      rw [hu] at this ⊢
      linarith
    have c0 : 0 < (1 + 6 * pow2 (-53)) ^ d := by rw [hu]; positivity
    have c2 : G * (1 + 6 * pow2 (-53)) ^ d ≤ 2800 * (101 / 100) := mul_le_mul hG1 c1 c0.le (by norm_num)
    have c3 : 9 * pow2 (-53) * (2 * A) + 3 * pow2 (-1075) ≤ 18 * pow2 (-53) * 1000000 + 3 / 10 ^ 30 := by rw [hu]; linarith
    have c4 : 0 ≤ 9 * pow2 (-53) * (2 * A) + 3 * pow2 (-1075) := by rw [hu]; linarith
    exact mul_le_mul (mul_le_mul d480 c3 c4 (by norm_num)) c2 (mul_pos hGpos c0).le (by rw [hu]; norm_num)
  have b3 : 300000 * pow2 (-53) * 1000000 ≤ 1 / 1000 := by rw [hu]; norm_num
  have b4 : 480 * (18 * pow2 (-53) * 1000000 + 3 / 10 ^ 30) * (2800 * (101 / 100)) ≤ 3 / 1000 := by rw [hu]; norm_num
  linarith

/-- **C125 (violated: small rates).** A loan at a small positive rate of interest cannot be made with Python's floats: the rate disappears in `1 + r`, and the constructor raises
`ZeroDivisionError`, although the instalment of exact arithmetic exists. -/
theorem C125_small_rate_violated {pw : ℚ → ℤ → ℚ} (name b l t : Str) (A rate : ℚ) (start : Int) (d : Nat) (interval : Int) (descr : Option Str) (hp : pw 1 d = 1) (hd : 0 < d) (h0 : 0 < rate)
    (h1 : rate ≤ pow2 (-50)) :
    newLoanF rnd64 pw name b l t A rate start d interval descr = .error .zeroDivisionError ∧ ∃ a, newLoan name b l t A rate start d interval descr = .ok a := by
  refine ⟨?_, (C21_constructible_partial name b l t A rate start d interval descr).2 h0 (by omega)⟩
  have e1 : rnd64 (1 + rnd64 (rate / 12)) = 1 := by
    have a1 : rnd64 (rate / 12) ≤ pow2 (-53) := by
      have : rate / 12 ≤ pow2 (-53) := by
        have : pow2 (-50) = 8 * pow2 (-53) := by decide +kernel
        have := pow2_pos (-53)
        linarith
      have h := rnd64_mono this
      rwa [rnd64_isF (isF_pow2 (by norm_num))] at h
    have a2 : 0 ≤ rnd64 (rate / 12) := rnd64_nonneg (by positivity)
    apply le_antisymm
    · have h := rnd64_mono (show 1 + rnd64 (rate / 12) ≤ 1 + pow2 (-53) by linarith)
      have : rnd64 (1 + pow2 (-53)) = 1 := by decide +kernel
      rwa [this] at h
    · have h := rnd64_mono (show (1 : ℚ) ≤ 1 + rnd64 (rate / 12) by linarith)
      rwa [ieee64.one] at h
  have e2 : rnd64 (1 - rnd64 (1 / 1)) = 0 := by decide +kernel
  unfold newLoanF paymentF
  simp only [e1, hp, one_ne_zero, if_false, e2, if_true]

/-- A power function that is right to within one unit in the last place: the exact power, rounded. -/
def powR (x : ℚ) (d : ℤ) : ℚ := rnd64 (x ^ d)

/-- **C125 (violated: the instalment).** At rates just above those, the instalment is wrong in the first digit: for a loan of 1000 over one month at `3.7e-15` a year it is 1375. -/
theorem C125_instalment_violated : ∃ (A rate : ℚ) (d : ℤ), rnd64 A = A ∧ rnd64 rate = rate ∧ 0 < rate ∧ 0 < d ∧ A = 1000 ∧ paymentF rnd64 powR A rate d = .ok 1375 ∧
    ∃ M, monthlyPayment A rate d = .ok M ∧ M < 1000 + 1 / 10 ^ 11 :=
  ⟨1000, 33 / 2 * pow2 (-52), 1, by decide +kernel, by decide +kernel, by decide +kernel, by norm_num, rfl, by decide +kernel,
    1000 * (1 + 11 / 8 * pow2 (-52)), by decide +kernel, by decide +kernel⟩

/-! ## Examples -/

/-- The machine exists, and a power function. -/
example : IEEE rnd64 (pow2 (-53)) (pow2 (-1075)) := ieee64

/-- The rounded power is good to one unit in the last place. -/
theorem powR_good : GoodPow powR (pow2 (-52)) := by
  intro x d h
  have h1 : 1 ≤ x ^ d := one_le_pow₀ h
  have e := rnd64_err (x ^ d)
  rw [abs_of_pos (show 0 < x ^ d by linarith)] at e
  have hv : pow2 (-52) = 2 * pow2 (-53) := by decide +kernel
  have hη : pow2 (-1075) ≤ pow2 (-53) := pow2_le (by norm_num)
  have := pow2_pos (-53)
  unfold powR
  rw [zpow_natCast, hv]
  nlinarith

/-- The loan of 1000 at 12 % over three months, on the machine. -/
def loanF : Activity := match newLoanF rnd64 powR "Loan".toList "Bank".toList "Loan".toList "Interest".toList 1000 (rnd64 (12/100)) clkM.start (3 : Nat) 1 none with
  | .ok a => a
  | .error _ => actB

/-- It meets the hypotheses; what is left at the end is a rounding error, and there is one. -/
example : rnd64 1000 = 1000 ∧ 1 / 100 ≤ rnd64 (12/100) ∧ rnd64 (12/100) ≤ 1 / 5 ∧ clkM.duration = .month ∧ clkM.start ≠ dtMin ∧ addMonths clkM.start (3 + 1) ≠ dtMax ∧
    newLoanF rnd64 powR "Loan".toList "Bank".toList "Loan".toList "Interest".toList 1000 (rnd64 (12/100)) clkM.start (3 : Nat) 1 none = .ok loanF ∧
    netCredit "Loan".toList (runForF rnd64 clkM (loanF.prepare clkM 9) 9).2 ≠ 0 := by
  refine ⟨by decide +kernel, by decide +kernel, by decide +kernel, rfl, by decide, by decide, by decide +kernel, by decide +kernel⟩

/-- The hypotheses of the violation. -/
example : powR 1 (3 : ℕ) = 1 ∧ (0 : ℚ) < pow2 (-51) ∧ pow2 (-51) ≤ pow2 (-50) := by decide +kernel

end Auxi.LoanFloat.Props
