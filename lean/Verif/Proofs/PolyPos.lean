import Mathlib.Analysis.Calculus.Deriv.Add
import Mathlib.Analysis.Calculus.Deriv.Mul
import Mathlib.Analysis.Calculus.Deriv.Pow
import Mathlib.Analysis.Calculus.Deriv.MeanValue
import Mathlib.Tactic.NormNum
import Mathlib.Tactic.Linarith
import Mathlib.Tactic.Ring
import Mathlib.Tactic.Positivity

/-! # A verified test that a polynomial with rational coefficients is positive on an interval -/
namespace Auxi.PolyPos

/-- The value of a polynomial given by its coefficients, the constant first. -/
noncomputable def eval : List ℚ → ℝ → ℝ
  | [], _ => 0
  | c :: p, x => (c : ℝ) + x * eval p x

/-- Sum of polynomials. -/
def add : List ℚ → List ℚ → List ℚ
  | [], q => q
  | p, [] => p
  | a :: p, b :: q => (a + b) :: add p q

/-- Multiple of a polynomial. -/
def smul (k : ℚ) (p : List ℚ) : List ℚ := p.map (k * ·)

/-- Product of polynomials. -/
def mul : List ℚ → List ℚ → List ℚ
  | [], _ => []
  | a :: p, q => add (smul a q) (0 :: mul p q)

/-- `p(x + a)`. -/
def shift (a : ℚ) : List ℚ → List ℚ
  | [] => []
  | c :: p => let q := shift a p; add (c :: q) (smul a q)

/-- `k p(h x)`. -/
def scale (h : ℚ) : ℚ → List ℚ → List ℚ
  | _, [] => []
  | k, c :: p => (k * c) :: scale h (k * h) p

/-- The derivative, from the `n`th power on. -/
def derivFrom : ℕ → List ℚ → List ℚ
  | _, [] => []
  | n, c :: p => ((n : ℚ) * c) :: derivFrom (n + 1) p

/-- The derivative. -/
def deriv : List ℚ → List ℚ
  | [] => []
  | _ :: p => derivFrom 1 p

theorem eval_add : ∀ (p q : List ℚ) (x : ℝ), eval (add p q) x = eval p x + eval q x
  | [], q, x => by simp [add, eval]
  | a :: p, [], x => by simp [add, eval]
  | a :: p, b :: q, x => by simp only [add, eval, eval_add p q x, Rat.cast_add]; ring

theorem eval_smul (k : ℚ) : ∀ (p : List ℚ) (x : ℝ), eval (smul k p) x = (k : ℝ) * eval p x
  | [], x => by simp [smul, eval]
  | a :: p, x => by
    have := eval_smul k p x
    simp only [smul] at this
    simp only [smul, List.map_cons, eval, this, Rat.cast_mul]; ring

theorem eval_mul : ∀ (p q : List ℚ) (x : ℝ), eval (mul p q) x = eval p x * eval q x
  | [], q, x => by simp [mul, eval]
  | a :: p, q, x => by simp only [mul, eval, eval_add, eval_smul, eval_mul p q x, Rat.cast_zero]; ring

theorem eval_shift (a : ℚ) : ∀ (p : List ℚ) (x : ℝ), eval (shift a p) x = eval p (x + a)
  | [], x => rfl
  | c :: p, x => by simp only [shift, eval_add, eval, eval_smul, eval_shift a p x]; ring

theorem eval_scale (h : ℚ) : ∀ (k : ℚ) (p : List ℚ) (x : ℝ), eval (scale h k p) x = (k : ℝ) * eval p (h * x)
  | _, [], x => by simp [scale, eval]
  | k, c :: p, x => by simp only [scale, eval, eval_scale h (k * h) p x, Rat.cast_mul]; ring

theorem hasDerivAt_from : ∀ (n : ℕ) (p : List ℚ) (x : ℝ), HasDerivAt (fun y => y ^ (n + 1) * eval p y) (x ^ n * eval (derivFrom (n + 1) p) x) x
  | n, [], x => by simpa [eval, derivFrom] using hasDerivAt_const x (0 : ℝ)
  | n, c :: p, x => by
    have h1 : HasDerivAt (fun y : ℝ => (c : ℝ) * y ^ (n + 1)) ((c : ℝ) * (((n + 1 : ℕ) : ℝ) * x ^ n)) x := by
      simpa using (hasDerivAt_pow (n + 1) x).const_mul (c : ℝ)
    have h2 := h1.add (hasDerivAt_from (n + 1) p x)
    refine (h2.congr_deriv ?_).congr_of_eventuallyEq (Filter.Eventually.of_forall fun y => ?_)
    · simp only [derivFrom, eval, Rat.cast_mul, Rat.cast_natCast]; ring
    · simp only [eval, Pi.add_apply]; ring

theorem hasDerivAt_eval (p : List ℚ) (x : ℝ) : HasDerivAt (eval p) (eval (deriv p) x) x := by
  cases p with
  | nil => exact hasDerivAt_const x (0 : ℝ)
  | cons c p =>
    have h := (hasDerivAt_from 0 p x).const_add (c : ℝ)
    simp only [pow_zero, one_mul, zero_add, pow_one] at h
    exact h

/-- The sum of the negative coefficients. -/
def negSum : List ℚ → ℚ
  | [] => 0
  | c :: p => min c 0 + negSum p

/-- A lower bound for the values on [0, 1]. -/
def lower : List ℚ → ℚ
  | [] => 0
  | c :: p => c + negSum p

theorem negSum_nonpos : ∀ p, negSum p ≤ 0
  | [] => le_refl _
  | c :: p => add_nonpos (min_le_right _ _) (negSum_nonpos p)

theorem negSum_le : ∀ (p : List ℚ) {t : ℝ}, 0 ≤ t → t ≤ 1 → ((negSum p : ℚ) : ℝ) ≤ eval p t
  | [], t, _, _ => by simp [negSum, eval]
  | c :: p, t, h0, h1 => by
    have ih := negSum_le p h0 h1
    have hn : ((negSum p : ℚ) : ℝ) ≤ 0 := by exact_mod_cast negSum_nonpos p
    have hc : ((min c 0 : ℚ) : ℝ) ≤ (c : ℝ) := by exact_mod_cast min_le_left c 0
    simp only [negSum, eval, Rat.cast_add]
    nlinarith [mul_le_mul_of_nonneg_left ih h0]

theorem lower_le (p : List ℚ) {t : ℝ} (h0 : 0 ≤ t) (h1 : t ≤ 1) : ((lower p : ℚ) : ℝ) ≤ eval p t := by
  cases p with
  | nil => simp [lower, eval]
  | cons c p =>
    have ih := negSum_le p h0 h1
    have hn : ((negSum p : ℚ) : ℝ) ≤ 0 := by exact_mod_cast negSum_nonpos p
    simp only [lower, eval, Rat.cast_add]
    nlinarith [mul_le_mul_of_nonneg_left ih h0]

/-- The polynomial is positive on [0, 1]: bisection. -/
def pos01 : ℕ → List ℚ → Bool
  | 0, p => decide (0 < lower p)
  | n + 1, p => decide (0 < lower p) || (let q := scale (1 / 2) 1 p; pos01 n q && pos01 n (shift 1 q))

theorem pos01_sound : ∀ (n : ℕ) (p : List ℚ), pos01 n p = true → ∀ t : ℝ, 0 ≤ t → t ≤ 1 → 0 < eval p t
  | 0, p, h, t, h0, h1 => by
    have : (0 : ℚ) < lower p := by simpa [pos01] using h
    have : (0 : ℝ) < ((lower p : ℚ) : ℝ) := by exact_mod_cast this
    linarith [lower_le p h0 h1]
  | n + 1, p, h, t, h0, h1 => by
    simp only [pos01, Bool.or_eq_true, decide_eq_true_eq, Bool.and_eq_true] at h
    rcases h with h | ⟨ha, hb⟩
    · have : (0 : ℝ) < ((lower p : ℚ) : ℝ) := by exact_mod_cast h
      linarith [lower_le p h0 h1]
    · by_cases ht : t ≤ 1 / 2
      · have k := pos01_sound n _ ha (2 * t) (by linarith) (by linarith)
        rw [eval_scale] at k
        norm_num at k
        rwa [show (1 : ℝ) / 2 * (2 * t) = t by ring] at k
      · have k := pos01_sound n _ hb (2 * t - 1) (by linarith) (by linarith)
        rw [eval_shift, eval_scale] at k
        norm_num at k
        rwa [show (1 : ℝ) / 2 * (2 * t) = t by ring] at k

/-- The polynomial is positive on [a, b]. -/
def posOn (n : ℕ) (a b : ℚ) (p : List ℚ) : Bool := pos01 n (scale (b - a) 1 (shift a p))

theorem posOn_sound {n : ℕ} {a b : ℚ} {p : List ℚ} (h : posOn n a b p = true) (hab : a < b) {x : ℝ} (h0 : (a : ℝ) ≤ x) (h1 : x ≤ b) : 0 < eval p x := by
  have hd : (0 : ℝ) < (b : ℝ) - a := by
    have : (a : ℝ) < (b : ℝ) := by exact_mod_cast hab
    linarith
  have k := pos01_sound n _ h ((x - a) / (b - a)) (div_nonneg (by linarith) hd.le) (by rw [div_le_one hd]; linarith)
  rw [eval_scale, eval_shift] at k
  push_cast at k
  have e : ((b : ℝ) - a) * ((x - a) / (b - a)) + a = x := by field_simp; ring
  rw [e, one_mul] at k
  exact k

/-- A polynomial with positive derivative increases. -/
theorem increases {n : ℕ} {a b : ℚ} {p : List ℚ} (h : posOn n a b (deriv p) = true) (hab : a < b) {x y : ℝ} (h0 : (a : ℝ) ≤ x) (hxy : x < y) (h1 : y ≤ b) :
    eval p x < eval p y := by
  have hm : StrictMonoOn (eval p) (Set.Icc (a : ℝ) b) := by
    refine strictMonoOn_of_deriv_pos (convex_Icc _ _) (fun z _ => (hasDerivAt_eval p z).continuousAt.continuousWithinAt) fun z hz => ?_
    rw [interior_Icc] at hz
    rw [(hasDerivAt_eval p z).deriv]
    exact posOn_sound h hab hz.1.le hz.2.le
  exact hm ⟨h0, by linarith⟩ ⟨by linarith, h1⟩ hxy

end Auxi.PolyPos
