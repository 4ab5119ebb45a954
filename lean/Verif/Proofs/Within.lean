import Mathlib.Algebra.BigOperators.Group.List.Lemmas
import Mathlib.Tactic.Linarith
import Mathlib.Tactic.Positivity
import Mathlib.Tactic.FieldSimp
import Mathlib.Tactic.Ring
import Verif.Spec.StoichFloat
import Verif.Proofs.ChemFloat
import Verif.StoichFloat

/-! # Calculating with relative errors -/
namespace Auxi.StoichFloat
open Auxi Auxi.Rounding Auxi.StoichFloat.Spec

variable {rnd : ℚ → ℚ} {u η v t N : ℚ}

theorem Spec.Arith.v0 (A : Arith rnd u η v t N) : 0 ≤ v := A.ieee.u0.trans A.uv
theorem Spec.Arith.q0 (A : Arith rnd u η v t N) : 0 < 1 - v := by have := A.v1; linarith
theorem Spec.Arith.q1 (A : Arith rnd u η v t N) : 1 - v ≤ 1 := by have := A.v0; linarith
theorem Spec.Arith.N0 (A : Arith rnd u η v t N) : 0 < N := lt_of_lt_of_le one_pos A.N1
theorem Spec.Arith.t1 (A : Arith rnd u η v t N) : t ≤ 1 := by
  refine le_trans ?_ A.room
  have := A.N1
  have := A.t0
  nlinarith

theorem pow_pos' (A : Arith rnd u η v t N) (k : ℕ) : 0 < (1 - v) ^ k := pow_pos A.q0 k
theorem pow_le (A : Arith rnd u η v t N) {k j : ℕ} (h : k ≤ j) : (1 - v) ^ j ≤ (1 - v) ^ k := pow_le_pow_of_le_one A.q0.le A.q1 h

theorem Spec.Within.nonneg (A : Arith rnd u η v t N) {k : ℕ} {x y : ℚ} (h : Within v k x y) : 0 ≤ y :=
  le_trans (mul_nonneg h.1 (pow_pos' A k).le) h.2.1

theorem Spec.Within.self {x : ℚ} (h : 0 ≤ x) : Within v 0 x x := ⟨h, by simp, by simp⟩

theorem Spec.Within.mono (A : Arith rnd u η v t N) {k j : ℕ} (hk : k ≤ j) {x y : ℚ} (h : Within v k x y) : Within v j x y :=
  ⟨h.1, le_trans (mul_le_mul_of_nonneg_left (pow_le A hk) h.1) h.2.1, le_trans (mul_le_mul_of_nonneg_left (pow_le A hk) (h.nonneg A)) h.2.2⟩

theorem Spec.Within.trans (A : Arith rnd u η v t N) {k j : ℕ} {x y z : ℚ} (h : Within v k x y) (h' : Within v j y z) : Within v (k + j) x z := by
  refine ⟨h.1, ?_, ?_⟩
  · rw [pow_add, ← mul_assoc]
    exact le_trans (mul_le_mul_of_nonneg_right h.2.1 (pow_pos' A j).le) h'.2.1
  · rw [pow_add, mul_comm ((1 - v) ^ k), ← mul_assoc]
    exact le_trans (mul_le_mul_of_nonneg_right h'.2.2 (pow_pos' A k).le) h.2.2

theorem Spec.Within.symm (A : Arith rnd u η v t N) {k : ℕ} {x y : ℚ} (h : Within v k x y) : Within v k y x := ⟨h.nonneg A, h.2.2, h.2.1⟩

theorem Spec.Within.mul (A : Arith rnd u η v t N) {k j : ℕ} {x y a b : ℚ} (h : Within v k x y) (h' : Within v j a b) : Within v (k + j) (x * a) (y * b) := by
  refine ⟨mul_nonneg h.1 h'.1, ?_, ?_⟩
  · rw [pow_add, mul_mul_mul_comm]
    exact mul_le_mul h.2.1 h'.2.1 (mul_nonneg h'.1 (pow_pos' A j).le) (h.nonneg A)
  · rw [pow_add, mul_mul_mul_comm]
    exact mul_le_mul h.2.2 h'.2.2 (mul_nonneg (h'.nonneg A) (pow_pos' A j).le) h.1

theorem Spec.Within.inv (A : Arith rnd u η v t N) {j : ℕ} {a b : ℚ} (h' : Within v j a b) (h0 : a ≠ 0) : 0 < b ∧ Within v j a⁻¹ b⁻¹ := by
  have ha : 0 < a := lt_of_le_of_ne h'.1 (Ne.symm h0)
  have hb : 0 < b := lt_of_lt_of_le (mul_pos ha (pow_pos' A j)) h'.2.1
  have hp := pow_pos' A j
  refine ⟨hb, (inv_pos.2 ha).le, ?_, ?_⟩
  · rw [inv_mul_le_iff₀ ha, ← div_eq_mul_inv, le_div_iff₀ hb, mul_comm]; exact h'.2.2
  · rw [inv_mul_le_iff₀ hb, ← div_eq_mul_inv, le_div_iff₀ ha, mul_comm]; exact h'.2.1

theorem Spec.Within.div (A : Arith rnd u η v t N) {k j : ℕ} {x y a b : ℚ} (h : Within v k x y) (h' : Within v j a b) (h0 : a ≠ 0) : Within v (k + j) (x / a) (y / b) := by
  rw [div_eq_mul_inv, div_eq_mul_inv]; exact h.mul A (h'.inv A h0).2

theorem within_sum (A : Arith rnd u η v t N) {k : ℕ} {l m : List ℚ} (h : List.Forall₂ (Within v k) l m) : Within v k l.sum m.sum := by
  induction h with
  | nil => exact (Within.self le_rfl).mono A (Nat.zero_le _)
  | cons h _ ih =>
    rw [List.sum_cons, List.sum_cons]
    exact ⟨add_nonneg h.1 ih.1, by rw [add_mul]; exact add_le_add h.2.1 ih.2.1, by rw [add_mul]; exact add_le_add h.2.2 ih.2.2⟩

/-- One rounding. -/
theorem within_of_err (A : Arith rnd u η v t N) {x y : ℚ} (hx : 0 ≤ x) (hy : 0 ≤ y) (h : |y - x| ≤ u * x + (v - u) * y) : Within v 1 x y := by
  have h1 := A.ieee.u0; have h2 := A.uv; have h3 := A.v1
  obtain ⟨a, b⟩ := abs_le.1 h
  refine ⟨hx, ?_, ?_⟩
  · rw [pow_one]
    by_contra hc
    have hc := not_le.1 hc
    have : y ≤ x := by nlinarith
    nlinarith
  · rw [pow_one]
    by_contra hc
    have hc := not_le.1 hc
    have : x ≤ y := by nlinarith
    nlinarith

/-- Rounding a number that is not tiny. -/
theorem within_round (A : Arith rnd u η v t N) {x : ℚ} (h : x = 0 ∨ t ≤ x) : Within v 1 x (rnd x) := by
  rcases h with rfl | h
  · rw [A.ieee.zero]; exact (Within.self le_rfl).mono A (Nat.zero_le _)
  · have hx : 0 ≤ x := A.t0.le.trans h
    have hy : t ≤ rnd x := A.ieee.float_le A.tf h
    refine within_of_err A hx (A.t0.le.trans hy) ?_
    have := A.ieee.err x
    rw [abs_of_nonneg hx] at this
    refine this.trans (add_le_add_right (A.tη.trans ?_) _)
    exact mul_le_mul_of_nonneg_left hy (by have := A.uv; linarith)

/-- Rounding a sum of floats. -/
theorem within_add (A : Arith rnd u η v t N) {x y : ℚ} (hx : rnd x = x) (hy : rnd y = y) (h : 0 ≤ x + y) : Within v 1 (x + y) (rnd (x + y)) := by
  have hn := A.ieee.nonneg h
  refine within_of_err A h hn ?_
  have := A.ieee.add hx hy
  rw [abs_of_nonneg h] at this
  refine this.trans ?_
  have := A.uv
  nlinarith

theorem foldl_within (A : Arith rnd u η v t N) : ∀ (l : List ℚ), (∀ x ∈ l, rnd x = x ∧ 0 ≤ x) → ∀ a : ℚ, rnd a = a → 0 ≤ a →
    Within v l.length (a + l.sum) (l.foldl (fun a x => rnd (a + x)) a) ∧ rnd (l.foldl (fun a x => rnd (a + x)) a) = l.foldl (fun a x => rnd (a + x)) a ∧
      a ≤ l.foldl (fun a x => rnd (a + x)) a ∧ ∀ x ∈ l, x ≤ l.foldl (fun a x => rnd (a + x)) a := by
  intro l
  induction l with
  | nil => intro _ a ha h0; exact ⟨by simpa using Within.self h0, ha, le_rfl, fun x hx => by (cases hx)⟩
  | cons y l ih =>
    intro hl a ha h0
    have hy := hl y List.mem_cons_self
    have w := within_add A ha hy.1 (add_nonneg h0 hy.2)
    have h1 : 0 ≤ rnd (a + y) := A.ieee.nonneg (add_nonneg h0 hy.2)
    have hl' : ∀ x ∈ l, rnd x = x ∧ 0 ≤ x := fun x hx => hl x (List.mem_cons_of_mem _ hx)
    obtain ⟨i1, i2, i3, i4⟩ := ih hl' (rnd (a + y)) (A.ieee.idem _) h1
    simp only [List.foldl_cons, List.length_cons, List.sum_cons]
    refine ⟨?_, i2, ?_, ?_⟩
    · have hs : 0 ≤ l.sum := List.sum_nonneg (fun x hx => (hl' x hx).2)
      have w2 : Within v 1 (a + (y + l.sum)) (rnd (a + y) + l.sum) := by
        have := A.q1
        have := A.q0
        refine ⟨by linarith [hy.2], ?_, ?_⟩
        · have := w.2.1; rw [pow_one] at *; nlinarith
        · have := w.2.2; rw [pow_one] at *; nlinarith
      rw [Nat.add_comm]
      exact w2.trans A i1
    · exact le_trans (A.ieee.float_le ha (by linarith [hy.2])) i3
    · intro x hx
      rcases List.mem_cons.1 hx with rfl | hx
      · exact le_trans (A.ieee.float_le hy.1 (by linarith)) i3
      · exact i4 x hx

theorem sumF_within (A : Arith rnd u η v t N) {l : List ℚ} (h : ∀ x ∈ l, rnd x = x ∧ 0 ≤ x) :
    Within v l.length l.sum (sumF rnd l) ∧ rnd (sumF rnd l) = sumF rnd l ∧ ∀ x ∈ l, x ≤ sumF rnd l := by
  obtain ⟨h1, h2, -, h4⟩ := foldl_within A l h 0 A.ieee.zero le_rfl
  rw [zero_add] at h1
  exact ⟨h1, h2, h4⟩

/-- Up to 128 roundings do not double a number. -/
theorem half_le (A : Arith rnd u η v t N) {k : ℕ} (hk : k ≤ 128) : 1 / 2 ≤ (1 - v) ^ k := by
  have h := ChemFloat.Proofs.one_sub_pow A.v0 (by have := A.v1; linarith) k
  refine le_trans ?_ h
  have h1 : (k : ℚ) ≤ 128 := by exact_mod_cast hk
  have := A.v1; have := A.v0
  nlinarith

/-- In terms of differences. -/
theorem Spec.Within.abs_sub (A : Arith rnd u η v t N) {k : ℕ} {x y : ℚ} (h : Within v k x y) (hk : k * v < 1) : |y - x| ≤ k * v / (1 - k * v) * x := by
  have h1 := ChemFloat.Proofs.one_sub_pow A.v0 (by have := A.v1; linarith) k
  have h2 : 0 < 1 - k * v := by linarith
  have hx := h.1
  have hy := h.nonneg A
  have kv : 0 ≤ (k : ℚ) * v := mul_nonneg (Nat.cast_nonneg _) A.v0
  rw [div_mul_eq_mul_div, le_div_iff₀ h2]
  have a1 : x * (1 - k * v) ≤ y := le_trans (mul_le_mul_of_nonneg_left h1 hx) h.2.1
  have a2 : y * (1 - k * v) ≤ x := le_trans (mul_le_mul_of_nonneg_left h1 hy) h.2.2
  rcases le_total y x with hle | hle
  · rw [abs_of_nonpos (by linarith)]; nlinarith
  · rw [abs_of_nonneg (by linarith)]; nlinarith

end Auxi.StoichFloat
