import Verif.Money
import Verif.Props.FileNumbers
import Verif.Props.Persist
import Verif.Props.DateText
import Mathlib.Tactic.Linarith
import Mathlib.Tactic.Ring
import Mathlib.Tactic.NormNum
import Mathlib.Tactic.Positivity
import Mathlib.Algebra.Ring.Int.Parity

/-!
# Property C150: the amounts that a report prints
-/
namespace Auxi.Money.Props
open Auxi Auxi.Money Auxi.Reports Auxi.FileFormat.Spec
open Auxi.FileFormat (pyFloat)

/-! ## Lemmas -/

theorem cents_spec {a : ℚ} (h : 0 ≤ a) : |(cents a : ℚ) - 100 * a| ≤ 1 / 2 ∧ (|(cents a : ℚ) - 100 * a| = 1 / 2 → cents a % 2 = 0) := by
  have h1 := Nat.floor_le (show (0 : ℚ) ≤ 100 * a by linarith)
  have h2 := Nat.lt_floor_add_one (100 * a)
  unfold cents
  generalize ⌊100 * a⌋₊ = n at *
  dsimp only
  split_ifs with c1 c2 c3
  · rw [abs_le]
    refine ⟨⟨by linarith, by linarith⟩, fun h => ?_⟩
    rw [abs_of_nonpos (by linarith)] at h; linarith
  · push_cast
    rw [abs_le]
    refine ⟨⟨by linarith, by linarith⟩, fun h => ?_⟩
    rw [abs_of_nonneg (by linarith)] at h; linarith
  · rw [abs_le]
    exact ⟨⟨by linarith, by linarith⟩, fun _ => c3⟩
  · push_cast
    rw [abs_le]
    exact ⟨⟨by linarith, by linarith⟩, fun _ => by omega⟩

theorem value_append (a b : Str) : Stoich.Spec.value (a ++ b) = Stoich.Spec.value a * 10 ^ b.length + Stoich.Spec.value b := by
  unfold Stoich.Spec.value
  rw [List.reverse_append, List.map_append, Nat.ofDigits_append]
  simp; ring

theorem digit_value {k : ℕ} (h : k < 10) : (Nat.digitChar k).toNat = 48 + k := Nat.toNat_digitChar_of_lt_ten h

theorem value_single {k : ℕ} (h : k < 10) : Stoich.Spec.value [Nat.digitChar k] = k := by
  simp [Stoich.Spec.value, digit_value h]

theorem value_padded (k n : ℕ) : Stoich.Spec.value (padded k n) = n % 10 ^ k := by
  induction k generalizing n with
  | zero => rw [pow_zero, Nat.mod_one]; rfl
  | succ k ih =>
    rw [padded, value_append, ih, value_single (by omega)]
    simp only [List.length_singleton, pow_one]
    rw [pow_succ, Nat.mul_comm (10 ^ k) 10, Nat.mod_mul]; ring

theorem length_padded (k n : ℕ) : (padded k n).length = k := by
  induction k generalizing n with
  | zero => rfl
  | succ k ih => rw [padded, List.length_append, ih]; rfl

theorem padded_digits (k n : ℕ) : Digits (padded k n) := by
  induction k generalizing n with
  | zero => intro c hc; simp [padded] at hc
  | succ k ih =>
    intro c hc
    rw [padded, List.mem_append] at hc
    rcases hc with hc | hc
    · exact ih _ c hc
    · simp only [List.mem_singleton] at hc
      subst hc
      rw [digit_value (by omega)]; omega

theorem value_toDigits (n : ℕ) : Stoich.Spec.value (Nat.toDigits 10 n) = n := by
  rw [← Stoich.numVal_eq]; exact Persist.Props.numVal_digits n

theorem toDigits_digits (n : ℕ) : Digits (Nat.toDigits 10 n) := by
  intro c hc
  have := DateText.Props.isDigit_bounds (Persist.Props.digits_digit n c hc)
  omega

theorem toDigits_ne (n : ℕ) : Nat.toDigits 10 n ≠ [] := by
  have : 0 < (Nat.toDigits 10 n).length := Nat.length_toDigits_pos
  intro h; rw [h] at this; simp at this

/-- The numeral that is printed. -/
def numeral (q : ℚ) : Numeral :=
  ⟨if q < 0 then some true else none, Nat.toDigits 10 (cents |q| / 100), some (padded 2 (cents |q| % 100)), none⟩

theorem numeral_text (q : ℚ) : (numeral q).text = money q := by
  unfold Numeral.text money numeral
  by_cases h : q < 0 <;> simp [h, signText, fracText, expText]

theorem numeral_proper (q : ℚ) : (numeral q).Proper where
  int := toDigits_digits _
  frac := by
    intro f hf
    simp only [numeral, Option.some.injEq] at hf
    subst hf; exact padded_digits _ _
  some_digit := .inl (toDigits_ne _)
  exp := by intro c s d h; simp [numeral] at h

theorem numeral_value (q : ℚ) : (numeral q).value = (if q < 0 then -1 else 1) * ((cents |q| : ℚ) / 100) := by
  have hv : Stoich.Spec.value (Nat.toDigits 10 (cents |q| / 100) ++ padded 2 (cents |q| % 100)) = cents |q| := by
    rw [value_append, value_toDigits, value_padded, length_padded]
    omega
  have hp : (10 : ℚ) ^ (expValue none - ((padded 2 (cents |q| % 100)).length : ℤ)) = 1 / 100 := by
    rw [length_padded]; norm_num [expValue]
  unfold Numeral.value
  simp only [numeral, Option.getD_some, hv, hp]
  by_cases h : q < 0 <;> simp [h] <;> ring

/-- Whole cents printed, with the sign. -/
def signed (q : ℚ) : ℤ := if q < 0 then -(cents |q| : ℤ) else cents |q|

theorem money_value (q : ℚ) : pyFloat (money q) = .ok ((signed q : ℚ) / 100) := by
  rw [← numeral_text, (FileFormat.Props.C95_number _ (numeral_proper q)).2, numeral_value]
  unfold signed
  by_cases h : q < 0 <;> simp [h]
  ring

theorem signed_spec (q : ℚ) : |(signed q : ℚ) / 100 - q| ≤ 1 / 200 ∧ (|(signed q : ℚ) / 100 - q| = 1 / 200 → Even (signed q)) := by
  obtain ⟨h1, h2⟩ := cents_spec (abs_nonneg q)
  have e : |(signed q : ℚ) / 100 - q| = |(cents (|q|) : ℚ) - 100 * (|q|)| / 100 := by
    unfold signed
    by_cases h : q < 0
    · rw [if_pos h]
      push_cast
      have : -(cents |q| : ℚ) / 100 - q = -(((cents |q| : ℚ) - 100 * |q|) / 100) := by rw [abs_of_neg h]; ring
      rw [this, abs_neg, abs_div]; norm_num
    · rw [if_neg h]
      push_cast
      have : (cents |q| : ℚ) / 100 - q = ((cents |q| : ℚ) - 100 * |q|) / 100 := by rw [abs_of_nonneg (not_lt.1 h)]; ring
      rw [this, abs_div]; norm_num
  rw [e]
  refine ⟨by linarith, fun h => ?_⟩
  have h3 := h2 (by linarith)
  unfold signed
  split
  · rw [even_neg]; exact Int.even_iff.2 (by omega)
  · exact Int.even_iff.2 (by omega)

/-- Of the whole numbers of cents, at most one is the nearest, ties going to the even one; and a larger amount has no smaller one. -/
theorem nearest_mono {p q : ℚ} {j k : ℤ} (h : p ≤ q) (hj : |(j : ℚ) / 100 - p| ≤ 1 / 200 ∧ (|(j : ℚ) / 100 - p| = 1 / 200 → Even j))
    (hk : |(k : ℚ) / 100 - q| ≤ 1 / 200 ∧ (|(k : ℚ) / 100 - q| = 1 / 200 → Even k)) : j ≤ k := by
  by_contra hc
  have h1 : (k : ℚ) + 1 ≤ j := by exact_mod_cast (by omega : k + 1 ≤ j)
  obtain ⟨a1, a2⟩ := abs_le.1 hj.1
  obtain ⟨b1, b2⟩ := abs_le.1 hk.1
  have e1 : (j : ℚ) / 100 - p = 1 / 200 := by linarith
  have e2 : (k : ℚ) / 100 - q = -(1 / 200) := by linarith
  have ej := hj.2 (by rw [e1]; norm_num)
  have ek := hk.2 (by rw [e2, abs_neg]; norm_num)
  have e3 : (j : ℚ) = k + 1 := by linarith
  have e4 : j = k + 1 := by exact_mod_cast e3
  rw [e4, Int.even_add_one] at ej
  exact ej ek

/-! ## C150: one amount -/

/-- **C150.** The text of an amount reads as the whole number of cents nearest to it, ties going to the even one. -/
theorem C150_reads (q : ℚ) : ∃ k : ℤ, pyFloat (money q) = .ok (k / 100) ∧ |(k : ℚ) / 100 - q| ≤ 1 / 200 ∧ (|(k : ℚ) / 100 - q| = 1 / 200 → Even k) :=
  ⟨signed q, money_value q, signed_spec q⟩

/-- **C150 (which).** Conversely, the text reads as `k` cents if `k` is nearest, ties going to the even one. -/
theorem C150_nearest (q : ℚ) (k : ℤ) (h1 : |(k : ℚ) / 100 - q| ≤ 1 / 200) (h2 : |(k : ℚ) / 100 - q| = 1 / 200 → Even k) :
    pyFloat (money q) = .ok (k / 100) := by
  rw [money_value]
  have := le_antisymm (nearest_mono le_rfl (signed_spec q) ⟨h1, h2⟩) (nearest_mono le_rfl ⟨h1, h2⟩ (signed_spec q))
  rw [this]

/-- **C150 (whole cents).** A whole number of cents is printed exactly. -/
theorem C150_whole (k : ℤ) : pyFloat (money (k / 100)) = .ok (k / 100) :=
  C150_nearest _ k (by simp) (by simp)

/-- **C150 (form).** The text is a minus sign for a negative amount, digits without superfluous zeros, a point and two digits. -/
theorem C150_form (q : ℚ) : ∃ i f : Str, money q = (if q < 0 then ['-'] else []) ++ (i ++ '.' :: f) ∧ Digits i ∧ Digits f ∧ f.length = 2 ∧
    (i = ['0'] ∨ ∃ c r, i = c :: r ∧ c ≠ '0') := by
  refine ⟨_, _, rfl, toDigits_digits _, padded_digits _ _, length_padded _ _, ?_⟩
  generalize cents |q| / 100 = n
  induction n using Nat.strong_induction_on with
  | _ n ih =>
    rw [Nat.toDigits_eq_if (by decide)]
    by_cases h : n < 10
    · rw [if_pos h]
      by_cases h0 : n = 0
      · left; subst h0; rfl
      · right
        refine ⟨_, _, rfl, fun he => ?_⟩
        have := digit_value h
        rw [he] at this
        exact h0 (by change 48 = 48 + n at this; omega)
    · rw [if_neg h]
      right
      rcases ih (n / 10) (by omega) with h1 | ⟨c, r, h1, h2⟩
      · exfalso
        have := value_toDigits (n / 10)
        rw [h1] at this
        change 0 = n / 10 at this
        omega
      · exact ⟨c, r ++ [Nat.digitChar (n % 10)], by rw [h1]; rfl, h2⟩

/-- **C150 (order).** A larger amount is not printed as a smaller number. -/
theorem C150_monotone (p q : ℚ) (h : p ≤ q) : ∃ x y : ℚ, pyFloat (money p) = .ok x ∧ pyFloat (money q) = .ok y ∧ x ≤ y := by
  refine ⟨_, _, money_value p, money_value q, ?_⟩
  have : ((signed p : ℤ) : ℚ) ≤ signed q := by exact_mod_cast nearest_mono h (signed_spec p) (signed_spec q)
  linarith

/-- **C150 (same text).** Amounts printed alike differ by at most a cent, and not at all if they are whole numbers of cents. -/
theorem C150_same (p q : ℚ) (h : money p = money q) : |p - q| ≤ 1 / 100 ∧ ((∃ j : ℤ, p = j / 100) → (∃ k : ℤ, q = k / 100) → p = q) := by
  constructor
  · have h1 := money_value p
    rw [h, money_value q] at h1
    simp only [Except.ok.injEq] at h1
    obtain ⟨a1, a2⟩ := abs_le.1 (signed_spec p).1
    obtain ⟨b1, b2⟩ := abs_le.1 (signed_spec q).1
    rw [abs_le]; constructor <;> linarith
  · rintro ⟨j, rfl⟩ ⟨k, rfl⟩
    have h1 := C150_whole j
    rw [h, C150_whole k] at h1
    simpa using h1.symm

/-- **C150 (sign).** An amount and its negative are printed with the same digits. -/
theorem C150_negative (q : ℚ) (h : 0 < q) : money (-q) = '-' :: money q := by
  unfold money
  rw [if_pos (by linarith), if_neg (by linarith), abs_neg]; rfl

/-- **C150 (net income).** The number in parentheses is that of the loss. -/
theorem C150_paren (q : ℚ) : cellText (.paren q) = "(".toList ++ cellText (.money q) ++ ")".toList := rfl

/-! ## C150: columns and totals -/

/-- **C150 (totals).** The printed total of `n` amounts differs from the sum of the `n` printed amounts by at most `n + 1` half cents. -/
theorem C150_total_partial (l : List ℚ) : ∃ (printed : List ℚ) (total : ℚ),
    List.Forall₂ (fun q x => pyFloat (money q) = .ok x) l printed ∧ pyFloat (money l.sum) = .ok total ∧ |printed.sum - total| ≤ (l.length + 1) / 200 := by
  have key : ∀ l : List ℚ, ∃ printed : List ℚ, List.Forall₂ (fun q x => pyFloat (money q) = .ok x) l printed ∧ |printed.sum - l.sum| ≤ l.length / 200 := by
    intro l
    induction l with
    | nil => exact ⟨[], .nil, by simp⟩
    | cons q l ih =>
      obtain ⟨ps, h1, h2⟩ := ih
      refine ⟨_, .cons (money_value q) h1, ?_⟩
      obtain ⟨a1, a2⟩ := abs_le.1 (signed_spec q).1
      obtain ⟨b1, b2⟩ := abs_le.1 h2
      rw [abs_le]
      simp only [List.sum_cons, List.length_cons]
      push_cast
      constructor <;> linarith
  obtain ⟨ps, h1, h2⟩ := key l
  refine ⟨ps, _, h1, money_value _, ?_⟩
  obtain ⟨a1, a2⟩ := abs_le.1 (signed_spec l.sum).1
  obtain ⟨b1, b2⟩ := abs_le.1 h2
  rw [abs_le]
  constructor <;> linarith

/-- **C150 (totals).** If every amount is a whole number of cents, the printed amounts add up to the printed total. -/
theorem C150_total_whole (ks : List ℤ) :
    (∀ k ∈ ks, pyFloat (money (k / 100)) = .ok (k / 100)) ∧ pyFloat (money (ks.map (fun k : ℤ => (k : ℚ) / 100)).sum) = .ok ((ks.map (fun k : ℤ => (k : ℚ) / 100)).sum) := by
  refine ⟨fun k _ => C150_whole k, ?_⟩
  have : (ks.map (fun k : ℤ => (k : ℚ) / 100)).sum = ((ks.sum : ℤ) : ℚ) / 100 := by
    induction ks with
    | nil => simp
    | cons k ks ih => rw [List.map_cons, List.sum_cons, ih, List.sum_cons]; push_cast; ring
  rw [this]; exact C150_whole _

/-- **C150 is violated** in general: two transactions of 0.004 are each printed as `0.00` and their total as `0.01`. -/
theorem C150_total_violated : (transactionList [] (.date 0) (.date 10) [Reports.Props.mk 5 "/E/A" "Bank/Default" "Sales" (4 / 1000), Reports.Props.mk 6 "/E/A" "Bank/Default" "Sales" (4 / 1000)]).map
      (fun t => (texts t).map (fun r => r[5]?)) = .ok [some "Amount".toList, some "0.00".toList, some "0.00".toList, some "0.01".toList] := by decide +kernel

/-- **C150 is violated** for the sign: a debt too small to see is printed as minus zero, and so small a loss as a loss of zero. -/
theorem C150_zero_violated : money (-4 / 1000) = "-0.00".toList ∧ money 0 = "0.00".toList ∧ cellText (.paren (4 / 1000)) = "(0.00)".toList := by decide +kernel

example : money (12345665 / 1000) = "12345.66".toList ∧ money (12345675 / 1000) = "12345.68".toList ∧ money (-1 / 3) = "-0.33".toList ∧ money 1000000 = "1000000.00".toList ∧
    money (995 / 1000) = "1.00".toList ∧ money (5 / 1000) = "0.00".toList ∧ money (15 / 1000) = "0.02".toList := by decide +kernel
example : pyFloat (money (2 / 3)) = .ok (67 / 100) ∧ pyFloat (money (-2 / 3)) = .ok (-67 / 100) := by decide +kernel

end Auxi.Money.Props
