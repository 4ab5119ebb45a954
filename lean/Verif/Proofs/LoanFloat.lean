import Verif.Spec.LoanFloat
import Verif.Proofs.Rounding
import Verif.Props.LoanSet

/-! # Rounding errors of a loan: lemmas -/
namespace Auxi.LoanFloat.Props
open Auxi Auxi.Business Auxi.Business.Spec Auxi.Rounding Auxi.LoanFloat.Spec

variable {rnd : ℚ → ℚ} {u η : ℚ}

/-! ## One month -/

theorem interest_err (R : IEEE rnd u η) (hu : u ≤ 1 / 16) {rate : ℚ} (h0 : 0 ≤ rate) (L : ℚ) :
    |interestF rnd rate L - L * rate / 12| ≤ 3 * u * (|L| * (rate / 12)) + 2 * η := by
  have e1 := R.err (L * rate)
  have e2 := R.err (rnd (L * rate) / 12)
  have u0 := R.u0
  have η0 := R.η0
  unfold interestF
  set b := rnd (L * rate) with hb
  have ha : |L * rate| = 12 * (|L| * (rate / 12)) := by rw [abs_mul, abs_of_nonneg h0]; ring
  have hρ : 0 ≤ |L| * (rate / 12) := by positivity
  set ρ := |L| * (rate / 12) with hρd
  rw [ha] at e1
  have hb' : |b| ≤ 12 * ρ + (u * (12 * ρ) + η) := by
    have : |b| ≤ |L * rate| + |b - L * rate| := by
      have := abs_add_le (L * rate) (b - L * rate); simpa using this
    rw [ha] at this; linarith
  have hc : |b / 12| ≤ ρ + (u * ρ + η / 12) := by rw [abs_div, abs_of_pos (by norm_num : (0 : ℚ) < 12)]; linarith
  have h3 : |b / 12 - L * rate / 12| ≤ u * ρ + η / 12 := by
    rw [← sub_div, abs_div, abs_of_pos (by norm_num : (0 : ℚ) < 12)]; linarith
  have h4 : |rnd (b / 12) - L * rate / 12| ≤ |rnd (b / 12) - b / 12| + |b / 12 - L * rate / 12| := abs_sub_le _ _ _
  have h5 : u * |b / 12| ≤ u * (ρ + (u * ρ + η / 12)) := mul_le_mul_of_nonneg_left hc u0
  have h6 : u * (u * ρ) ≤ 1 / 16 * (u * ρ) := mul_le_mul_of_nonneg_right hu (by positivity)
  have h7 : u * (η / 12) ≤ 1 / 16 * (η / 12) := mul_le_mul_of_nonneg_right hu (by positivity)
  have h8 : 0 ≤ u * ρ := by positivity
  nlinarith

theorem left_err (R : IEEE rnd u η) (hu : u ≤ 1 / 16) {rate : ℚ} (h0 : 0 ≤ rate) {L M : ℚ} (hL : rnd L = L) (hM : rnd M = M) :
    |leftF rnd rate M L - (L * (1 + rate / 12) - M)| ≤ u * (6 * (|L| * (1 + rate / 12)) + 3 * |M|) + 3 * η := by
  have e1 := interest_err R hu h0 L
  have u0 := R.u0
  have η0 := R.η0
  set i := interestF rnd rate L with hi
  have hif : rnd i = i := R.idem _
  have hMf : rnd (-M) = -M := by rw [R.neg, hM]
  have e2 := R.add hif hMf
  have e3 := R.add hL (R.idem (i + -M))
  unfold leftF
  rw [← hi]
  simp only [sub_eq_add_neg] at e1 e2 e3 ⊢
  set s := rnd (i + -M) with hs
  have hρ : 0 ≤ |L| * (rate / 12) := by positivity
  have hid : |L * rate / 12| = |L| * (rate / 12) := by rw [mul_div_assoc, abs_mul, abs_of_nonneg (by positivity : 0 ≤ rate / 12)]
  have hi' : |i| ≤ |L| * (rate / 12) + (3 * u * (|L| * (rate / 12)) + 2 * η) := by
    have := abs_add_le (L * rate / 12) (i + -(L * rate / 12)); simp only [add_neg_cancel_left, hid, add_neg_cancel_comm_assoc] at this
    linarith
  have g1 : |L| * (1 + rate / 12) = |L| + |L| * (rate / 12) := by ring
  rw [g1]
  set ρ := |L| * (rate / 12) with hρd
  have hM0 := abs_nonneg M
  have hL0 := abs_nonneg L
  have him : |i + -M| ≤ ρ + (3 * u * ρ + 2 * η) + |M| := by
    have := abs_add_le i (-M); rw [abs_neg] at this; linarith
  have hs' : |s| ≤ |i + -M| + u * |i + -M| := by
    have := abs_add_le (i + -M) (s + -(i + -M)); rw [add_neg_cancel_comm_assoc] at this
    linarith
  have hls : |L + s| ≤ |L| + |s| := abs_add_le _ _
  have t1 : rnd (L + s) + -(L * (1 + rate / 12) + -M) = (rnd (L + s) + -(L + s)) + (s + -(i + -M)) + (i + -(L * rate / 12)) := by ring
  rw [t1]
  have t2 := abs_add_le ((rnd (L + s) + -(L + s)) + (s + -(i + -M))) (i + -(L * rate / 12))
  have t3 := abs_add_le (rnd (L + s) + -(L + s)) (s + -(i + -M))
  have ui : u * |i + -M| ≤ 1 / 16 * |i + -M| := mul_le_mul_of_nonneg_right hu (abs_nonneg _)
  have up : u * ρ ≤ 1 / 16 * ρ := mul_le_mul_of_nonneg_right hu hρ
  have him2 : |i + -M| ≤ 5 / 4 * ρ + 2 * η + |M| := by linarith
  have hls2 : |L + s| ≤ |L| + 17 / 16 * (5 / 4 * ρ + 2 * η + |M|) := by linarith
  have k1 : u * |i + -M| ≤ u * (5 / 4 * ρ + 2 * η + |M|) := mul_le_mul_of_nonneg_left him2 u0
  have k2 : u * |L + s| ≤ u * (|L| + 17 / 16 * (5 / 4 * ρ + 2 * η + |M|)) := mul_le_mul_of_nonneg_left hls2 u0
  have k3 : u * η ≤ 1 / 16 * η := mul_le_mul_of_nonneg_right hu η0
  have k4 : 0 ≤ u * ρ := by positivity
  have k5 : 0 ≤ u * |M| := by positivity
  have k6 : 0 ≤ u * |L| := by positivity
  nlinarith

/-! ## All months -/

/-- What the loan reckons to be owed. -/
def owed (rnd : ℚ → ℚ) (A rate M : ℚ) : ℕ → ℚ
  | 0 => A
  | k + 1 => leftF rnd rate M (owed rnd A rate M k)

/-- What the transactions add up to. -/
def recorded (rnd : ℚ → ℚ) (A rate M : ℚ) : ℕ → ℚ
  | 0 => A
  | k + 1 => recorded rnd A rate M k + (interestF rnd rate (owed rnd A rate M k) - M)

theorem owed_float (R : IEEE rnd u η) {A rate M : ℚ} (hA : rnd A = A) : ∀ k, rnd (owed rnd A rate M k) = owed rnd A rate M k
  | 0 => hA
  | _ + 1 => R.idem _

theorem drift_succ (hu : 0 ≤ u) (hη : 0 ≤ η) {g B : ℚ} (hg : 1 ≤ g) (hB : 0 ≤ B) (n : ℕ) :
    g * (1 + 6 * u) * drift u η g B n + (9 * u * B * g + 3 * η) ≤ drift u η g B (n + 1) := by
  unfold drift
  have h1 : 1 ≤ g * (1 + 6 * u) := by nlinarith
  have h2 : 1 ≤ (g * (1 + 6 * u)) ^ n := one_le_pow₀ h1
  rw [pow_succ]
  push_cast
  set h := g * (1 + 6 * u)
  set P := h ^ n
  have h3 : g ≤ h := by change g ≤ g * (1 + 6 * u); nlinarith
  have c0 : 0 ≤ 9 * u * B := by positivity
  have hPh : h ≤ P * h := by nlinarith
  have k1 : 9 * u * B * g ≤ 9 * u * B * (P * h) := mul_le_mul_of_nonneg_left (h3.trans hPh) c0
  have k2 : 3 * η * 1 ≤ 3 * η * (P * h) := mul_le_mul_of_nonneg_left (h1.trans hPh) (by positivity)
  nlinarith

theorem drift_nonneg (hu : 0 ≤ u) (hη : 0 ≤ η) {g B : ℚ} (hg : 1 ≤ g) (hB : 0 ≤ B) (n : ℕ) : 0 ≤ drift u η g B n := by
  unfold drift; positivity

theorem months_err (R : IEEE rnd u η) (hu : u ≤ 1 / 16) {A rate M B : ℚ} (h0 : 0 ≤ rate) (hA : rnd A = A) (hM : rnd M = M) (hMB : |M| ≤ (1 + rate / 12) * B) :
    ∀ n, (∀ k < n, |outstanding A rate M k| ≤ B) →
      |owed rnd A rate M n - outstanding A rate M n| ≤ drift u η (1 + rate / 12) B n ∧
      |recorded rnd A rate M n - outstanding A rate M n| ≤ drift u η (1 + rate / 12) B n
  | 0, _ => by simp [owed, recorded, outstanding, drift]
  | n + 1, hB => by
    obtain ⟨i1, i2⟩ := months_err R hu h0 hA hM hMB n (fun k hk => hB k (by omega))
    have hL := hB n (by omega)
    have B0 : 0 ≤ B := (abs_nonneg _).trans hL
    have hs := drift_succ R.u0 R.η0 (g := 1 + rate / 12) (by linarith [show 0 ≤ rate / 12 by positivity]) B0 n
    have hd0 := drift_nonneg R.u0 R.η0 (g := 1 + rate / 12) (by linarith [show 0 ≤ rate / 12 by positivity]) B0 n
    have e1 := left_err R hu h0 (owed_float R (rate := rate) (M := M) hA n) hM
    have e2 := interest_err R hu h0 (owed rnd A rate M n)
    have u0 := R.u0
    have η0 := R.η0
    set o := owed rnd A rate M n with ho
    set L := outstanding A rate M n with hLd
    set D := drift u η (1 + rate / 12) B n with hD
    have hr : 0 ≤ rate / 12 := by positivity
    set r := rate / 12 with hrd
    have hoB : |o| ≤ B + D := by
      have := abs_add_le L (o - L); rw [add_sub_cancel] at this; linarith
    simp only [owed, recorded, outstanding, ← ho, ← hLd, ← hrd]
    refine ⟨?_, ?_⟩
    · have t : leftF rnd rate M o - (L * (1 + r) - M) = (leftF rnd rate M o - (o * (1 + r) - M)) + (o - L) * (1 + r) := by ring
      rw [t]
      have t2 := abs_add_le (leftF rnd rate M o - (o * (1 + r) - M)) ((o - L) * (1 + r))
      rw [abs_mul (o - L), abs_of_pos (by linarith : 0 < 1 + r)] at t2
      have k1 : |o - L| * (1 + r) ≤ D * (1 + r) := mul_le_mul_of_nonneg_right i1 (by linarith)
      have k2 : |o| * (1 + r) ≤ (B + D) * (1 + r) := mul_le_mul_of_nonneg_right hoB (by linarith)
      have k3 : u * (6 * (|o| * (1 + r)) + 3 * |M|) ≤ u * (6 * ((B + D) * (1 + r)) + 3 * ((1 + r) * B)) := mul_le_mul_of_nonneg_left (by linarith) u0
      nlinarith
    · have t : recorded rnd A rate M n + (interestF rnd rate o - M) - (L * (1 + r) - M) = (recorded rnd A rate M n - L) + (interestF rnd rate o - o * rate / 12) + (o - L) * r := by
        rw [hrd]; ring
      rw [t]
      have t2 := abs_add_le ((recorded rnd A rate M n - L) + (interestF rnd rate o - o * rate / 12)) ((o - L) * r)
      have t3 := abs_add_le (recorded rnd A rate M n - L) (interestF rnd rate o - o * rate / 12)
      rw [abs_mul (o - L), abs_of_nonneg hr] at t2
      have k1 : |o - L| * r ≤ D * r := mul_le_mul_of_nonneg_right i1 hr
      have k2 : |o| * r ≤ (B + D) * r := mul_le_mul_of_nonneg_right hoB hr
      have k3 : 3 * u * (|o| * r) ≤ 3 * u * ((B + D) * r) := mul_le_mul_of_nonneg_left k2 (by positivity)
      have k4 : 0 ≤ u * (B * r) := by positivity
      have k5 : 0 ≤ u * (D * r) := by positivity
      have k6 : 0 ≤ u * D := by positivity
      have k7 : 0 ≤ u * B := by positivity
      nlinarith


/-! ## The instalment -/

theorem pow_one_add_le {y : ℚ} (h0 : 0 ≤ y) (d : ℕ) (h : d * y ≤ 1 / 2) : (1 + y) ^ d ≤ 1 + 2 * (d * y) := by
  rcases Nat.eq_zero_or_pos d with rfl | hd
  · simp
  have hy : y ≤ 1 / 2 := by
    have : (1 : ℚ) ≤ d := by exact_mod_cast hd
    nlinarith
  have h1 : 1 - d * y ≤ (1 - y) ^ d := by
    have := one_add_mul_le_pow (a := -y) (by linarith) d
    rw [mul_neg] at this
    simpa [sub_eq_add_neg] using this
  have h2 : (1 - y) ^ d * (1 + y) ^ d ≤ 1 := by
    rw [← mul_pow]; exact pow_le_one₀ (by nlinarith) (by nlinarith)
  have h3 : 0 < (1 + y) ^ d := by positivity
  have h4 : (1 - d * y) * (1 + y) ^ d ≤ 1 := (mul_le_mul_of_nonneg_right h1 h3.le).trans h2
  have hdy : 0 ≤ d * y := by positivity
  nlinarith

theorem pow_one_sub_ge {y : ℚ} (h1 : y ≤ 1) (d : ℕ) : 1 - d * y ≤ (1 - y) ^ d := by
  have := one_add_mul_le_pow (a := -y) (by linarith) d
  rw [mul_neg] at this
  simpa [sub_eq_add_neg] using this

/-- The machine's `1 / (1 + r) ** d`. -/
theorem discount_err (R : IEEE rnd u η) {pw : ℚ → ℤ → ℚ} {v : ℚ} (hv0 : 0 ≤ v) (hv : v ≤ 1 / 16) (hp : GoodPow pw v) {r x : ℚ} {d : ℕ} (hd : 0 < d) (hr : 0 < r) (hx1 : 1 ≤ x)
    (hx : |x - (1 + r)| ≤ 4 * u * (1 + r)) (hdu : 16 * d * u ≤ 1) (hη : η ≤ u * (1 / (1 + r) ^ d)) :
    0 < pw x d ∧ |rnd (1 / pw x d) - 1 / (1 + r) ^ d| ≤ (20 * d * u + 4 * v) * (1 / (1 + r) ^ d) := by
  have u0 := R.u0
  have d1 : (1 : ℚ) ≤ d := by exact_mod_cast hd
  have hu : u ≤ 1 / 16 := by nlinarith
  have du0 : 0 ≤ (d : ℚ) * u := by positivity
  have g0 : 0 < 1 + r := by linarith
  set g := 1 + r with hg
  rw [abs_le] at hx
  have x0 : 0 < x := by nlinarith
  have hq := hp x d hx1
  set q := pw x d with hqd
  have xd0 : 0 < x ^ d := by positivity
  have gd0 : 0 < g ^ d := by positivity
  rw [abs_le] at hq
  have q0 : 0 < q := by nlinarith
  refine ⟨q0, ?_⟩
  -- x / g between 1 - 4u and 1 + 4u
  have l1 : g * (1 - 4 * u) ≤ x := by linarith
  have l2 : x ≤ g * (1 + 4 * u) := by linarith
  have p1 : g ^ d * (1 - 4 * u) ^ d ≤ x ^ d := by rw [← mul_pow]; exact pow_le_pow_left₀ (by nlinarith) l1 d
  have p2 : x ^ d ≤ g ^ d * (1 + 4 * u) ^ d := by rw [← mul_pow]; exact pow_le_pow_left₀ x0.le l2 d
  have p3 := pow_one_sub_ge (y := 4 * u) (by linarith) d
  have p4 := pow_one_add_le (y := 4 * u) (by positivity) d (by linarith)
  have w0 : (d : ℚ) * (4 * u) ≤ 1 / 4 := by linarith
  -- q / g^d
  have m1 : g ^ d * (1 - d * (4 * u)) * (1 - v) ≤ q := by
    have a : g ^ d * (1 - d * (4 * u)) ≤ x ^ d := (mul_le_mul_of_nonneg_left p3 gd0.le).trans p1
    have b := mul_le_mul_of_nonneg_right a (by linarith : 0 ≤ 1 - v)
    linarith
  have m2 : q ≤ g ^ d * (1 + 2 * (d * (4 * u))) * (1 + v) := by
    have a : x ^ d ≤ g ^ d * (1 + 2 * (d * (4 * u))) := p2.trans (mul_le_mul_of_nonneg_left p4 gd0.le)
    have b := mul_le_mul_of_nonneg_right a (by linarith : 0 ≤ 1 + v)
    linarith
  set y := (d : ℚ) * (4 * u) with hy
  have y0 : 0 ≤ y := by positivity
  have hW : |1 / q - 1 / g ^ d| ≤ (3 * y + 2 * v) * (1 / g ^ d) := by
    have t : 1 / q - 1 / g ^ d = (g ^ d - q) / q * (1 / g ^ d) := by field_simp
    rw [t, abs_mul, abs_of_pos (by positivity : 0 < 1 / g ^ d)]
    refine mul_le_mul_of_nonneg_right ?_ (by positivity)
    rw [abs_div, abs_of_pos q0, div_le_iff₀ q0, abs_le]
    have yv : 0 ≤ y * v := by positivity
    have c : (45 / 64 : ℚ) ≤ (1 - y) * (1 - v) := by nlinarith
    have q1 : g ^ d * ((1 - y) * (1 - v)) ≤ q := by linarith
    constructor
    · have k1 : (3 * y + 2 * v) * (g ^ d * ((1 - y) * (1 - v))) ≤ (3 * y + 2 * v) * q := mul_le_mul_of_nonneg_left q1 (by positivity)
      have k2 : (2 * y + v + 2 * y * v) ≤ (3 * y + 2 * v) * ((1 - y) * (1 - v)) := by nlinarith
      have k3 := mul_le_mul_of_nonneg_left k2 gd0.le
      linarith
    · have k1 : (3 * y + 2 * v) * (g ^ d * ((1 - y) * (1 - v))) ≤ (3 * y + 2 * v) * q := mul_le_mul_of_nonneg_left q1 (by positivity)
      have k2 : y + v - y * v ≤ (3 * y + 2 * v) * ((1 - y) * (1 - v)) := by nlinarith
      have k3 := mul_le_mul_of_nonneg_left k2 gd0.le
      linarith
  have e := R.err (1 / q)
  rw [abs_of_pos (by positivity : 0 < 1 / q)] at e
  set W := 1 / g ^ d with hWd
  have W0 : 0 < W := by positivity
  have hq' : 1 / q ≤ W + (3 * y + 2 * v) * W := by have := (abs_le.1 hW).2; linarith
  have t := abs_sub_le (rnd (1 / q)) (1 / q) W
  have k1 : u * (1 / q) ≤ u * (W + (3 * y + 2 * v) * W) := mul_le_mul_of_nonneg_left hq' u0
  have k2 : (3 * y + 2 * v) * (u * W) ≤ 1 * (u * W) := mul_le_mul_of_nonneg_right (by linarith) (by positivity)
  have k3 : u * W ≤ d * u * W := by
    have : u * W * 1 ≤ u * W * d := mul_le_mul_of_nonneg_left d1 (by positivity)
    linarith
  have k4 : 0 ≤ v * W := by positivity
  have k5 : y * W = 4 * (d * u * W) := by rw [hy]; ring
  nlinarith

theorem monthly_err (R : IEEE rnd u η) (hu : u ≤ 1 / 16) {r rF : ℚ} (h : |rF - r| ≤ u * r + η) (hr : 0 < r) (hη : η ≤ u * r) (hF : rnd rF = rF) :
    |rnd (1 + rF) - (1 + r)| ≤ 4 * u * (1 + r) := by
  have u0 := R.u0
  have e := R.add R.one hF
  have h2 : |rF - r| ≤ 2 * (u * r) := by linarith
  rw [abs_le] at h2
  have hur : u * r ≤ 1 / 16 * r := mul_le_mul_of_nonneg_right hu hr.le
  rw [abs_of_pos (by linarith : 0 < 1 + rF)] at e
  have t := abs_sub_le (rnd (1 + rF)) (1 + rF) (1 + r)
  have t2 : |1 + rF - (1 + r)| ≤ 2 * (u * r) := by rw [abs_le]; constructor <;> linarith
  have k : u * (1 + rF) ≤ u * (1 + 2 * r) := mul_le_mul_of_nonneg_left (by linarith) u0
  nlinarith

set_option maxHeartbeats 1000000 in
/-- The instalment of the machine. -/
theorem payment_err (R : IEEE rnd u η) {pw : ℚ → ℤ → ℚ} {v : ℚ} (hv0 : 0 ≤ v) (hv : v ≤ 1 / 16) (hp : GoodPow pw v) {A rate : ℚ} {d : ℕ} (hd : 0 < d) (hA : 0 < A) (hrate : 0 < rate)
    (hdu : 16 * d * u ≤ 1) (h1 : η ≤ u * (rate / 12)) (h2 : η ≤ u * (A * (rate / 12))) (h3 : η ≤ u * (1 / (1 + rate / 12) ^ d)) (ht : tol u v (1 + rate / 12) d ≤ 1 / 4) :
    ∃ M M', paymentF rnd pw A rate d = .ok M ∧ monthlyPayment A rate d = .ok M' ∧ 0 < M' ∧ rnd M = M ∧ |M - M'| ≤ tol u v (1 + rate / 12) d * M' := by
  have u0 := R.u0
  have d1 : (1 : ℚ) ≤ d := by exact_mod_cast hd
  have hu : u ≤ 1 / 16 := by nlinarith
  set r := rate / 12 with hr
  have r0 : 0 < r := by positivity
  have g1 : 1 < (1 + r) ^ d := one_lt_pow₀ (by linarith) hd.ne'
  set G := (1 + r) ^ d with hG
  set rF := rnd r with hrF
  have e1 : |rF - r| ≤ u * r + η := by have := R.err r; rwa [abs_of_pos r0] at this
  have ex := monthly_err R hu e1 r0 h1 (R.idem _)
  have rF0 : 0 ≤ rF := by have := R.mono r0.le; rwa [R.zero] at this
  have hx1 : 1 ≤ rnd (1 + rF) := by have := R.mono (show (1 : ℚ) ≤ 1 + rF by linarith); rwa [R.one] at this
  obtain ⟨q0, ew⟩ := discount_err R hv0 hv hp hd r0 hx1 ex hdu h3
  set x := rnd (1 + rF) with hx
  set W := 1 / G with hW
  have W0 : 0 < W := by positivity
  have W1 : W < 1 := by rw [hW, div_lt_one (by linarith)]; exact g1
  set w := rnd (1 / pw x d) with hw
  set θ := 20 * (d : ℚ) * u + 4 * v with hθ
  have θ0 : 0 ≤ θ := by positivity
  set κ := θ / (G - 1) with hκ
  have κ0 : 0 ≤ κ := div_nonneg θ0 (by linarith)
  have htol : tol u v (1 + r) d = 16 * u + 4 * κ := by
    unfold tol; rw [← hG, hκ, hθ]; ring
  rw [htol] at ht ⊢
  have hD : θ * W = κ * (1 - W) := by
    rw [hκ, hW]; field_simp [(by linarith : G - 1 ≠ 0), (by linarith : G ≠ 0)]
  set D := 1 - W with hDd
  have D0 : 0 < D := by linarith
  have D1 : D ≤ 1 := by linarith
  rw [hD] at ew
  have hwf : rnd w = w := R.idem _
  have ed := R.add R.one (show rnd (-w) = -w by rw [R.neg, hwf])
  rw [← sub_eq_add_neg] at ed
  set den := rnd (1 - w) with hden
  have hw1 : |1 - w| ≤ D + κ * D := by
    have : (1 : ℚ) - w = D + -(w - W) := by rw [hDd]; ring
    rw [this]
    have := abs_add_le D (-(w - W)); rw [abs_neg, abs_of_pos D0] at this; linarith
  have hdD : |den - D| ≤ (u + κ + u * κ) * D := by
    have t := abs_sub_le den (1 - w) D
    have t2 : |1 - w - D| = |w - W| := by rw [hDd, show 1 - w - (1 - W) = -(w - W) by ring, abs_neg]
    have k : u * |1 - w| ≤ u * (D + κ * D) := mul_le_mul_of_nonneg_left hw1 u0
    linarith
  have u64 : u ≤ 1 / 64 := by linarith
  have κ16 : κ ≤ 1 / 16 := by linarith
  have uκ : u * κ ≤ 1 / 16 * κ := mul_le_mul_of_nonneg_right hu κ0
  set δ := u + κ + u * κ with hδ
  have δ0 : 0 ≤ δ := by positivity
  have δ1 : δ ≤ 1 / 8 := by linarith
  rw [abs_le] at hdD
  have den0 : 7 / 8 * D ≤ den := by
    have := mul_le_mul_of_nonneg_right δ1 D0.le
    linarith
  have denp : 0 < den := by linarith
  -- numerator
  have eN := R.err (A * rF)
  set N := rnd (A * rF) with hN
  set T := A * r with hT
  have T0 : 0 < T := by positivity
  have hur : u * r ≤ 1 / 16 * r := mul_le_mul_of_nonneg_right hu r0.le
  have hrF2 : |rF - r| ≤ 2 * (u * r) := by linarith
  have hrFp : 0 ≤ rF := by rw [abs_le] at hrF2; linarith
  have hAr : |A * rF - T| ≤ 2 * u * T := by
    rw [hT, ← mul_sub, abs_mul, abs_of_pos hA]
    have := mul_le_mul_of_nonneg_left hrF2 hA.le
    linarith
  have huT : u * T ≤ 1 / 16 * T := mul_le_mul_of_nonneg_right hu T0.le
  have hNT : |N - T| ≤ 5 * u * T := by
    have t := abs_sub_le N (A * rF) T
    have hb : |A * rF| ≤ T + 2 * u * T := by rw [abs_of_nonneg (by positivity)]; have := (abs_le.1 hAr).2; linarith
    have k := mul_le_mul_of_nonneg_left hb u0
    have k2 : u * (u * T) ≤ 1 / 16 * (u * T) := mul_le_mul_of_nonneg_right hu (mul_nonneg u0 T0.le)
    have k3 : 0 ≤ u * T := mul_nonneg u0 T0.le
    linarith
  -- the quotient
  set Q := T / D with hQ
  have Q0 : 0 < Q := by positivity
  have QT : T ≤ Q := by rw [hQ, le_div_iff₀ D0]; exact mul_le_of_le_one_right T0.le D1
  have hquo : |N / den - Q| ≤ 8 / 7 * (5 * u + δ) * Q := by
    have t : N / den - Q = ((N - T) - Q * (den - D)) / den := by
      rw [hQ]; field_simp; ring
    rw [t, abs_div, abs_of_pos denp, div_le_iff₀ denp]
    have a1 : |N - T - Q * (den - D)| ≤ |N - T| + |Q * (den - D)| := abs_sub _ _
    have a2 : |Q * (den - D)| ≤ Q * (δ * D) := by
      rw [abs_mul, abs_of_pos Q0]; exact mul_le_mul_of_nonneg_left (abs_le.2 hdD) Q0.le
    have a3 : T = Q * D := by rw [hQ]; field_simp
    have a4 : 8 / 7 * (5 * u + δ) * Q * (7 / 8 * D) ≤ 8 / 7 * (5 * u + δ) * Q * den := mul_le_mul_of_nonneg_left den0 (by positivity)
    have a5 : |N - T| ≤ 5 * u * (Q * D) := by rw [← a3]; exact hNT
    linarith
  have eM := R.err (N / den)
  have hM' : monthlyPayment A rate d = .ok Q := by
    unfold monthlyPayment
    simp only [zpow_natCast, ← hr, ← hG, ← hW]
    rw [if_neg (by linarith), if_neg D0.ne']
  have hx0 : x ≠ 0 := by
    have := (abs_le.1 ex).1
    have : 0 < x := by nlinarith
    exact this.ne'
  refine ⟨rnd (N / den), Q, ?_, hM', Q0, R.idem _, ?_⟩
  · unfold paymentF
    dsimp only
    rw [← hr, ← hrF, ← hx, if_neg hx0, if_neg q0.ne', ← hw, ← hden, if_neg denp.ne']
  · have t := abs_sub_le (rnd (N / den)) (N / den) Q
    have hb : |N / den| ≤ Q + 8 / 7 * (5 * u + δ) * Q := by
      have := abs_add_le Q (N / den - Q); rw [add_sub_cancel, abs_of_pos Q0] at this; linarith
    have k := mul_le_mul_of_nonneg_left hb u0
    have hηQ : η ≤ u * Q := h2.trans (mul_le_mul_of_nonneg_left QT u0)
    have k2 : 8 / 7 * (5 * u + δ) ≤ 1 := by linarith
    have k3 : u * (8 / 7 * (5 * u + δ) * Q) ≤ u * (1 * Q) := mul_le_mul_of_nonneg_left (mul_le_mul_of_nonneg_right k2 Q0.le) u0
    have k4 : δ * Q ≤ (u + 17 / 16 * κ) * Q := mul_le_mul_of_nonneg_right (by linarith) Q0.le
    have k5 : 0 ≤ κ * Q := by positivity
    have k6 : 0 ≤ u * Q := by positivity
    linarith

end Auxi.LoanFloat.Props
