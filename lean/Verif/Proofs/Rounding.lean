import Verif.Rounding

/-!
# `rnd64` rounds as IEEE 754 asks
-/
namespace Auxi.Rounding

theorem pow2_eq (e : ℤ) : pow2 e = (2 : ℚ) ^ e := by
  cases e with
  | ofNat n => simp [pow2]
  | negSucc n => simp [pow2, zpow_negSucc]

theorem pow2_pos (e : ℤ) : 0 < pow2 e := by rw [pow2_eq]; positivity

theorem pow2_add (a b : ℤ) : pow2 (a + b) = pow2 a * pow2 b := by
  simp only [pow2_eq]; exact zpow_add₀ (by norm_num) a b

theorem pow2_le {a b : ℤ} (h : a ≤ b) : pow2 a ≤ pow2 b := by
  simp only [pow2_eq]; exact zpow_le_zpow_right₀ (by norm_num) h

theorem pow2_nat (n : ℕ) : pow2 (n : ℤ) = ((2 ^ n : ℤ) : ℚ) := by simp [pow2_eq]

theorem pow2_lt_iff {a b : ℤ} : pow2 a < pow2 b ↔ a < b := by
  simp only [pow2_eq]; exact zpow_lt_zpow_iff_right₀ (by norm_num)

theorem pow2_le_iff {a b : ℤ} : pow2 a ≤ pow2 b ↔ a ≤ b := by
  simp only [pow2_eq]; exact zpow_le_zpow_iff_right₀ (by norm_num)

/-- `pow2` of a difference of exponents is an integer. -/
theorem pow2_sub_int {a b : ℤ} (h : b ≤ a) : ∃ k : ℤ, pow2 a = (k : ℚ) * pow2 b ∧ 0 < k := by
  obtain ⟨n, hn⟩ := Int.eq_ofNat_of_zero_le (sub_nonneg.mpr h)
  refine ⟨2 ^ n, ?_, by positivity⟩
  rw [← pow2_nat, ← pow2_add]; congr 1; omega

theorem log2_spec {x : ℚ} (hx : x ≠ 0) : pow2 (log2 x) ≤ |x| ∧ |x| < pow2 (log2 x + 1) := by
  have hn : x.num.natAbs ≠ 0 := by simpa using hx
  have hd : x.den ≠ 0 := x.den_nz
  have n1 := Nat.log2_self_le hn
  have n2 := @Nat.lt_log2_self x.num.natAbs
  have d1 := Nat.log2_self_le hd
  have d2 := @Nat.lt_log2_self x.den
  generalize hN : x.num.natAbs.log2 = N at *
  generalize hD : x.den.log2 = D at *
  have ax : |x| = (x.num.natAbs : ℚ) / (x.den : ℚ) := by
    conv_lhs => rw [← Rat.num_div_den x]
    rw [abs_div, Nat.abs_cast, Nat.cast_natAbs, Int.cast_abs]
  have dp : (0 : ℚ) < x.den := by exact_mod_cast x.den_pos
  have e1 : (2 : ℚ) ^ N ≤ x.num.natAbs := by exact_mod_cast n1
  have e2 : (x.num.natAbs : ℚ) < 2 ^ (N + 1) := by exact_mod_cast n2
  have f1 : (2 : ℚ) ^ D ≤ x.den := by exact_mod_cast d1
  have f2 : (x.den : ℚ) < 2 ^ (D + 1) := by exact_mod_cast d2
  have lo : pow2 ((N : ℤ) - D - 1) < |x| := by
    rw [ax, lt_div_iff₀ dp, pow2_eq]
    have : ((2 : ℚ) ^ ((N : ℤ) - D - 1)) * 2 ^ (D + 1) = 2 ^ N := by
      rw [← zpow_natCast, ← zpow_natCast, ← zpow_add₀ (by norm_num)]; congr 1; push_cast; ring
    calc _ < (2 : ℚ) ^ ((N : ℤ) - D - 1) * 2 ^ (D + 1) := by
          apply mul_lt_mul_of_pos_left f2; positivity
      _ ≤ _ := by rw [this]; exact e1
  have hi : |x| < pow2 ((N : ℤ) - D + 1) := by
    rw [ax, div_lt_iff₀ dp, pow2_eq]
    have : ((2 : ℚ) ^ ((N : ℤ) - D + 1)) * 2 ^ D = 2 ^ (N + 1) := by
      rw [← zpow_natCast, ← zpow_natCast, ← zpow_add₀ (by norm_num)]; congr 1; push_cast; ring
    calc (x.num.natAbs : ℚ) < 2 ^ (N + 1) := e2
      _ = (2 : ℚ) ^ ((N : ℤ) - D + 1) * 2 ^ D := this.symm
      _ ≤ _ := by apply mul_le_mul_of_nonneg_left f1; positivity
  unfold log2
  rw [hN, hD]
  by_cases h : pow2 ((N : ℤ) - D) ≤ |x|
  · simp only [if_pos h]; exact ⟨h, hi⟩
  · simp only [if_neg h]
    refine ⟨le_of_lt lo, ?_⟩
    rw [sub_add_cancel]; exact not_le.mp h

/-- The exponent is determined by the binade. -/
theorem log2_unique {x : ℚ} {e : ℤ} (h1 : pow2 e ≤ |x|) (h2 : |x| < pow2 (e + 1)) : log2 x = e := by
  have hx : x ≠ 0 := by rintro rfl; rw [abs_zero] at h1; exact absurd (pow2_pos e) (not_lt.mpr h1)
  obtain ⟨a, b⟩ := log2_spec hx
  have c := pow2_lt_iff.mp (lt_of_le_of_lt h1 b)
  have d := pow2_lt_iff.mp (lt_of_le_of_lt a h2)
  omega

theorem log2_neg (x : ℚ) : log2 (-x) = log2 x := by
  by_cases hx : x = 0
  · rw [hx, neg_zero]
  · exact log2_unique (by rw [abs_neg]; exact (log2_spec hx).1) (by rw [abs_neg]; exact (log2_spec hx).2)

theorem log2_mono {x y : ℚ} (hx : x ≠ 0) (h : |x| ≤ |y|) : log2 x ≤ log2 y := by
  have hy : y ≠ 0 := by rintro rfl; rw [abs_zero] at h; exact hx (abs_nonpos_iff.mp h)
  have a := (log2_spec hx).1
  have b := (log2_spec hy).2
  have := pow2_lt_iff.mp (lt_of_le_of_lt (a.trans h) b)
  omega

theorem roundEven_err (q : ℚ) : |(roundEven q : ℚ) - q| ≤ 1 / 2 := by
  have h1 := Int.floor_le q
  have h2 := Int.lt_floor_add_one q
  unfold roundEven
  rw [abs_le]
  split_ifs <;> push_cast <;> constructor <;> linarith

theorem roundEven_int (k : ℤ) : roundEven (k : ℚ) = k := by
  unfold roundEven; simp

theorem roundEven_mono {p q : ℚ} (h : p ≤ q) : roundEven p ≤ roundEven q := by
  have hf := Int.floor_mono h
  have hp : roundEven p ≤ ⌊p⌋ + 1 := by unfold roundEven; split_ifs <;> omega
  have hq : ⌊q⌋ ≤ roundEven q := by unfold roundEven; split_ifs <;> omega
  by_cases he : ⌊p⌋ = ⌊q⌋
  · have : p - ⌊p⌋ ≤ q - ⌊q⌋ := by rw [he]; linarith
    unfold roundEven
    rw [he] at this ⊢
    split_ifs <;> first | omega | (exfalso; linarith)
  · have : ⌊p⌋ + 1 ≤ ⌊q⌋ := by omega
    omega

theorem roundEven_neg (q : ℚ) : roundEven (-q) = -roundEven q := by
  have h1 := Int.floor_le q
  have h2 := Int.lt_floor_add_one q
  by_cases hi : q = ⌊q⌋
  · rw [hi, ← Int.cast_neg, roundEven_int, roundEven_int]
  · have hlt : (⌊q⌋ : ℚ) < q := lt_of_le_of_ne h1 (Ne.symm hi)
    have hf : ⌊-q⌋ = -⌊q⌋ - 1 := by
      rw [Int.floor_eq_iff]; push_cast; constructor <;> linarith
    unfold roundEven
    rw [hf]
    push_cast
    split_ifs <;> first | omega | (exfalso; linarith)

theorem expo_ge (x : ℚ) : -1074 ≤ expo x := le_max_right _ _

theorem expo_neg (x : ℚ) : expo (-x) = expo x := by unfold expo; rw [log2_neg]

theorem rnd64_neg (x : ℚ) : rnd64 (-x) = -rnd64 x := by
  unfold rnd64
  by_cases hx : x = 0
  · simp [hx]
  · rw [if_neg hx, if_neg (by simpa using hx), expo_neg, neg_div, roundEven_neg]; push_cast; ring

theorem rnd64_zero : rnd64 0 = 0 := by simp [rnd64]

/-- The error of rounding is at most half a unit in the last place. -/
theorem rnd64_half (x : ℚ) : |rnd64 x - x| ≤ pow2 (expo x) / 2 := by
  unfold rnd64
  by_cases hx : x = 0
  · rw [if_pos hx, hx]; have := pow2_pos (expo 0); simp; linarith
  · rw [if_neg hx]
    have hp := pow2_pos (expo x)
    have e : (roundEven (x / pow2 (expo x)) : ℚ) * pow2 (expo x) - x = ((roundEven (x / pow2 (expo x)) : ℚ) - x / pow2 (expo x)) * pow2 (expo x) := by
      field_simp
    rw [e, abs_mul, abs_of_pos hp]
    have := roundEven_err (x / pow2 (expo x))
    nlinarith

theorem rnd64_err (x : ℚ) : |rnd64 x - x| ≤ pow2 (-53) * |x| + pow2 (-1075) := by
  by_cases hx : x = 0
  · rw [hx, rnd64_zero]; simp; exact (pow2_pos _).le
  have h := rnd64_half x
  have h1 := (log2_spec hx).1
  have p1 := pow2_pos (-1075)
  have p2 := pow2_pos (-53)
  rcases max_choice (log2 x - 52) (-1074) with hc | hc
  · have e : pow2 (expo x) / 2 = pow2 (-53) * pow2 (log2 x) := by
      rw [expo, hc, ← pow2_add]
      have : log2 x - 52 = (-53 + log2 x) + 1 := by ring
      rw [this, pow2_add _ 1]; simp [pow2_eq]
    rw [e] at h
    nlinarith
  · have e : pow2 (expo x) / 2 = pow2 (-1075) := by
      rw [expo, hc]
      have : (-1074 : ℤ) = -1075 + 1 := by norm_num
      rw [this, pow2_add _ 1]; simp [pow2_eq]
    rw [e] at h
    have := abs_nonneg x
    nlinarith

/-- The floats: integers of at most 53 bits times powers of two. -/
def IsF (x : ℚ) : Prop := ∃ (k e : ℤ), |k| ≤ 2 ^ 53 ∧ -1074 ≤ e ∧ x = (k : ℚ) * pow2 e

/-- A multiple of the unit in the last place is not rounded. -/
theorem rnd64_mult {x : ℚ} {k : ℤ} (h : x = (k : ℚ) * pow2 (expo x)) : rnd64 x = x := by
  unfold rnd64
  by_cases hx : x = 0
  · rw [if_pos hx, hx]
  · rw [if_neg hx]
    have hp := (pow2_pos (expo x)).ne'
    have : x / pow2 (expo x) = (k : ℚ) := by rw [div_eq_iff hp]; exact h
    rw [this, roundEven_int]; exact h.symm

theorem mult_trans {x : ℚ} {k e : ℤ} (h : x = (k : ℚ) * pow2 e) (he : expo x ≤ e) : ∃ j : ℤ, x = (j : ℚ) * pow2 (expo x) := by
  obtain ⟨j, hj, -⟩ := pow2_sub_int he
  exact ⟨k * j, by push_cast; rw [mul_assoc, ← hj]; exact h⟩

theorem expo_le {x : ℚ} (hx : x ≠ 0) {e : ℤ} (he : -1074 ≤ e) (h : |x| < pow2 (e + 53)) : expo x ≤ e := by
  have := pow2_lt_iff.mp (lt_of_le_of_lt (log2_spec hx).1 h)
  unfold expo; omega

/-- Floats are not changed by rounding. -/
theorem rnd64_isF {x : ℚ} (h : IsF x) : rnd64 x = x := by
  obtain ⟨k, e, hk, he, hx⟩ := h
  by_cases h0 : x = 0
  · rw [h0, rnd64_zero]
  have hp := pow2_pos e
  have ax : |x| = |(k : ℚ)| * pow2 e := by rw [hx, abs_mul, abs_of_pos hp]
  rcases lt_or_eq_of_le hk with hlt | heq
  · have : |x| < pow2 (e + 53) := by
      rw [ax, pow2_add, mul_comm (pow2 e)]
      apply mul_lt_mul_of_pos_right _ hp
      rw [show (53 : ℤ) = ((53 : ℕ) : ℤ) by rfl, pow2_nat]
      exact_mod_cast hlt
    obtain ⟨j, hj⟩ := mult_trans hx (expo_le h0 he this)
    exact rnd64_mult hj
  · have hk2 : ∃ s : ℤ, k = s * 2 ^ 52 * 2 := by
      rcases abs_choice k with c | c <;> [exact ⟨1, by omega⟩; exact ⟨-1, by omega⟩]
    obtain ⟨s, hs⟩ := hk2
    have hx' : x = ((s * 2 ^ 52 : ℤ) : ℚ) * pow2 (e + 1) := by
      rw [hx, hs, pow2_add]; push_cast; rw [show pow2 1 = 2 by simp [pow2_eq]]; ring
    have : |x| < pow2 (e + 1 + 53) := by
      rw [ax, show e + 1 + 53 = 54 + e by ring, pow2_add]
      apply mul_lt_mul_of_pos_right _ hp
      rw [show (54 : ℤ) = ((54 : ℕ) : ℤ) by rfl, pow2_nat, ← Int.cast_abs, heq]; norm_num
    obtain ⟨j, hj⟩ := mult_trans hx' (expo_le h0 (by omega) this)
    exact rnd64_mult hj

/-- The mantissa of a rounded number has at most 53 bits. -/
theorem mantissa_le (x : ℚ) : |roundEven (x / pow2 (expo x))| ≤ 2 ^ 53 := by
  by_cases hx : x = 0
  · rw [hx, zero_div]; have := roundEven_int 0; push_cast at this; rw [this]; norm_num
  have hp := pow2_pos (expo x)
  have h : |x / pow2 (expo x)| ≤ ((2 ^ 53 : ℤ) : ℚ) := by
    rw [abs_div, abs_of_pos hp, div_le_iff₀ hp, show ((2 ^ 53 : ℤ) : ℚ) = pow2 53 by rw [show (53 : ℤ) = ((53 : ℕ) : ℤ) by rfl, pow2_nat], ← pow2_add]
    refine (log2_spec hx).2.le.trans (pow2_le ?_)
    have : log2 x - 52 ≤ expo x := le_max_left _ _
    omega
  rw [abs_le] at h ⊢
  constructor
  · have := roundEven_mono h.1
    rw [← Int.cast_neg, roundEven_int] at this; exact this
  · have := roundEven_mono h.2
    rw [roundEven_int] at this; exact this

theorem isF_rnd64 (x : ℚ) : IsF (rnd64 x) := by
  by_cases hx : x = 0
  · exact ⟨0, 0, by norm_num, by norm_num, by rw [hx, rnd64_zero]; simp⟩
  · exact ⟨roundEven (x / pow2 (expo x)), expo x, mantissa_le x, expo_ge x, by rw [rnd64, if_neg hx]⟩

theorem isF_pow2 {e : ℤ} (h : -1074 ≤ e) : IsF (pow2 e) := ⟨1, e, by norm_num, h, by simp⟩

theorem rnd64_nonneg {x : ℚ} (h : 0 ≤ x) : 0 ≤ rnd64 x := by
  unfold rnd64
  split_ifs
  · exact le_refl _
  · have hp := pow2_pos (expo x)
    have := roundEven_mono (div_nonneg h hp.le)
    have e := roundEven_int 0
    push_cast at e
    rw [e] at this
    have : (0 : ℚ) ≤ roundEven (x / pow2 (expo x)) := by exact_mod_cast this
    positivity

theorem rnd64_mono_pos {x y : ℚ} (hx : 0 < x) (h : x ≤ y) : rnd64 x ≤ rnd64 y := by
  have hy : 0 < y := lt_of_lt_of_le hx h
  have hl := log2_mono (y := y) hx.ne' (by rwa [abs_of_pos hx, abs_of_pos hy])
  by_cases he : expo x = expo y
  · unfold rnd64
    rw [if_neg hx.ne', if_neg hy.ne', he]
    have hp := pow2_pos (expo y)
    apply mul_le_mul_of_nonneg_right _ hp.le
    exact_mod_cast roundEven_mono (div_le_div_of_nonneg_right h hp.le)
  · -- y is in a higher binade
    have h1 : expo x < expo y := by unfold expo at he ⊢; omega
    have h2 : expo y = log2 y - 52 := by
      rcases max_choice (log2 y - 52) (-1074) with hc | hc
      · exact hc
      · have := expo_ge x
        have : expo y = -1074 := hc
        omega
    have h3 : expo x + 53 ≤ log2 y := by omega
    have hp := pow2_pos (expo x)
    have hq := pow2_pos (expo y)
    -- a power of two lies between
    have b1 : rnd64 x ≤ pow2 (log2 y) := by
      refine le_trans ?_ (pow2_le h3)
      rw [pow2_add, rnd64, if_neg hx.ne', mul_comm]
      apply mul_le_mul_of_nonneg_left _ hp.le
      rw [show (53 : ℤ) = ((53 : ℕ) : ℤ) by rfl, pow2_nat]
      exact_mod_cast le_trans (le_abs_self _) (mantissa_le x)
    have b2 : pow2 (log2 y) ≤ rnd64 y := by
      rw [show log2 y = 52 + expo y by omega, pow2_add, rnd64, if_neg hy.ne']
      apply mul_le_mul_of_nonneg_right _ hq.le
      rw [show (52 : ℤ) = ((52 : ℕ) : ℤ) by rfl, pow2_nat]
      have : ((2 ^ 52 : ℤ) : ℚ) ≤ y / pow2 (expo y) := by
        rw [le_div_iff₀ hq, ← pow2_nat, ← pow2_add, show ((52 : ℕ) : ℤ) + expo y = log2 y by push_cast; omega]
        have := (log2_spec hy.ne').1
        rwa [abs_of_pos hy] at this
      have := roundEven_mono this
      rw [roundEven_int] at this
      exact_mod_cast this
    exact b1.trans b2

theorem rnd64_mono {x y : ℚ} (h : x ≤ y) : rnd64 x ≤ rnd64 y := by
  rcases lt_trichotomy x 0 with hx | hx | hx
  · rcases lt_or_ge y 0 with hy | hy
    · have := rnd64_mono_pos (x := -y) (y := -x) (by linarith) (by linarith)
      rw [rnd64_neg, rnd64_neg] at this; linarith
    · have a := rnd64_nonneg hy
      have b := rnd64_nonneg (x := -x) (by linarith)
      rw [rnd64_neg] at b; linarith
  · rw [hx, rnd64_zero]; exact rnd64_nonneg (by rw [← hx]; exact h)
  · exact rnd64_mono_pos hx h

theorem isF_grid {x : ℚ} (h : IsF x) : ∃ k : ℤ, x = (k : ℚ) * pow2 (-1074) := by
  obtain ⟨k, e, -, he, hx⟩ := h
  obtain ⟨j, hj, -⟩ := pow2_sub_int he
  exact ⟨k * j, by rw [hx, hj]; push_cast; ring⟩

theorem rnd64_add {x y : ℚ} (hx : rnd64 x = x) (hy : rnd64 y = y) : |rnd64 (x + y) - (x + y)| ≤ pow2 (-53) * |x + y| := by
  obtain ⟨a, ha⟩ := isF_grid (hx ▸ isF_rnd64 x)
  obtain ⟨b, hb⟩ := isF_grid (hy ▸ isF_rnd64 y)
  have hs : x + y = ((a + b : ℤ) : ℚ) * pow2 (-1074) := by
    rw [ha, hb]; push_cast; ring
  have pp := pow2_pos (-53)
  by_cases h0 : x + y = 0
  · rw [h0, rnd64_zero]; simp
  rcases max_choice (log2 (x + y) - 52) (-1074) with hc | hc
  · have h := rnd64_half (x + y)
    have e : pow2 (expo (x + y)) / 2 = pow2 (-53) * pow2 (log2 (x + y)) := by
      rw [expo, hc, ← pow2_add]
      have : log2 (x + y) - 52 = (-53 + log2 (x + y)) + 1 := by ring
      rw [this, pow2_add _ 1]; simp [pow2_eq]
    rw [e] at h
    have := (log2_spec h0).1
    nlinarith
  · have : rnd64 (x + y) = x + y := rnd64_mult (k := a + b) (by rw [expo, hc]; exact hs)
    rw [this, sub_self, abs_zero]
    have := abs_nonneg (x + y)
    positivity

/-- Python's floats. -/
theorem ieee64 : IEEE rnd64 (pow2 (-53)) (pow2 (-1075)) where
  u0 := (pow2_pos _).le
  u1 := by decide +kernel
  η0 := (pow2_pos _).le
  mono := rnd64_mono
  zero := rnd64_zero
  one := rnd64_isF ⟨1, 0, by norm_num, by norm_num, by simp [pow2_eq]⟩
  neg := rnd64_neg
  idem x := rnd64_isF (isF_rnd64 x)
  err := rnd64_err
  add := rnd64_add

/-- Exact arithmetic is a special case. -/
theorem ieee_exact : IEEE id 0 0 where
  u0 := le_refl _
  u1 := by norm_num
  η0 := le_refl _
  mono := fun h => h
  zero := rfl
  one := rfl
  neg _ := rfl
  idem _ := rfl
  err x := by simp
  add _ _ := by simp

theorem roundEven_nearest (q : ℚ) (j : ℤ) : |(roundEven q : ℚ) - q| ≤ |(j : ℚ) - q| := by
  by_contra h
  rw [not_le] at h
  have e := roundEven_err q
  have : |((j - roundEven q : ℤ) : ℚ)| < 1 := by
    push_cast
    calc |(j : ℚ) - roundEven q| = |((j : ℚ) - q) - ((roundEven q : ℚ) - q)| := by congr 1; ring
      _ ≤ |(j : ℚ) - q| + |(roundEven q : ℚ) - q| := abs_sub _ _
      _ < 1 := by linarith
  have h1 : |j - roundEven q| < 1 := by exact_mod_cast this
  have h2 : j = roundEven q := by have := Int.abs_lt_one_iff.mp h1; omega
  rw [h2] at h; exact lt_irrefl _ h

theorem rnd64_grid {x : ℚ} (hx : x ≠ 0) (j : ℤ) : |rnd64 x - x| ≤ |(j : ℚ) * pow2 (expo x) - x| := by
  have hp := pow2_pos (expo x)
  rw [rnd64, if_neg hx]
  have e : ∀ k : ℤ, (k : ℚ) * pow2 (expo x) - x = ((k : ℚ) - x / pow2 (expo x)) * pow2 (expo x) := by
    intro k; field_simp
  rw [e, e, abs_mul, abs_mul]
  exact mul_le_mul_of_nonneg_right (roundEven_nearest _ _) (abs_nonneg _)

theorem rnd64_nearest_pos {x f : ℚ} (hx : 0 < x) (hf : rnd64 f = f) : |rnd64 x - x| ≤ |f - x| := by
  by_cases hb : pow2 (log2 x) ≤ f
  · have f0 : 0 < f := lt_of_lt_of_le (pow2_pos _) hb
    have hl : log2 x ≤ log2 f := by
      have := lt_of_le_of_lt hb (by have := (log2_spec f0.ne').2; rwa [abs_of_pos f0] at this)
      have := pow2_lt_iff.mp this
      omega
    have he : expo x ≤ expo f := by unfold expo; omega
    obtain ⟨j, hj, -⟩ := pow2_sub_int he
    have hf' : f = ((roundEven (f / pow2 (expo f)) * j : ℤ) : ℚ) * pow2 (expo x) := by
      rw [rnd64, if_neg f0.ne'] at hf
      push_cast
      rw [mul_assoc, ← hj]; exact hf.symm
    have := rnd64_grid hx.ne' (roundEven (f / pow2 (expo f)) * j)
    rwa [← hf'] at this
  · rcases max_choice (log2 x - 52) (-1074) with hc | hc
    · obtain ⟨j, hj, -⟩ := pow2_sub_int (a := log2 x) (b := expo x) (by rw [expo, hc]; omega)
      have h1 := rnd64_grid hx.ne' j
      rw [← hj] at h1
      have h2 := (log2_spec hx.ne').1
      rw [abs_of_pos hx] at h2
      rw [not_le] at hb
      refine h1.trans ?_
      rw [abs_of_nonpos (by linarith), abs_of_nonpos (by linarith)]; linarith
    · obtain ⟨k, hk⟩ := isF_grid (hf ▸ isF_rnd64 f)
      have := rnd64_grid hx.ne' k
      rwa [expo, hc, ← hk] at this

/-- The rounded number is a nearest float: no other float is nearer. -/
theorem rnd64_nearest (x f : ℚ) (hf : rnd64 f = f) : |rnd64 x - x| ≤ |f - x| := by
  rcases lt_trichotomy x 0 with hx | hx | hx
  · have := rnd64_nearest_pos (x := -x) (f := -f) (by linarith) (by rw [rnd64_neg, hf])
    rw [rnd64_neg] at this
    rw [← abs_neg, ← abs_neg (f - x)]
    convert this using 2 <;> ring
  · rw [hx, rnd64_zero]; simp
  · exact rnd64_nearest_pos hx hf

end Auxi.Rounding
