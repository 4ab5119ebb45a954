import Verif.Spec.ChemFloat
import Verif.Proofs.Rounding
import Verif.Proofs.Chem
import Mathlib.Algebra.Order.Ring.Pow
import Mathlib.Algebra.Order.BigOperators.Group.List

/-!
# Lemmas on rounded arithmetic for chem packages
-/
namespace Auxi.Rounding.IEEE
variable {rnd : ℚ → ℚ} {u η : ℚ}

theorem nonneg (R : IEEE rnd u η) {x : ℚ} (h : 0 ≤ x) : 0 ≤ rnd x := by have := R.mono h; rwa [R.zero] at this

theorem le_float (R : IEEE rnd u η) {x y : ℚ} (hy : rnd y = y) (h : x ≤ y) : rnd x ≤ y := by have := R.mono h; rwa [hy] at this

theorem float_le (R : IEEE rnd u η) {x y : ℚ} (hx : rnd x = x) (h : x ≤ y) : x ≤ rnd y := by have := R.mono h; rwa [hx] at this

theorem sub (R : IEEE rnd u η) {x y : ℚ} (hx : rnd x = x) (hy : rnd y = y) : |rnd (x - y) - (x - y)| ≤ u * |x - y| := by
  have := R.add hx (y := -y) (by rw [R.neg, hy])
  rwa [← sub_eq_add_neg] at this

theorem bounds (R : IEEE rnd u η) {x : ℚ} (h : 0 ≤ x) : (1 - u) * x - η ≤ rnd x ∧ rnd x ≤ (1 + u) * x + η := by
  have := R.err x
  rw [abs_of_nonneg h, abs_le] at this
  constructor <;> linarith [this.1, this.2]

theorem add_bounds (R : IEEE rnd u η) {x y : ℚ} (hx : rnd x = x) (hy : rnd y = y) (h : 0 ≤ x + y) : (1 - u) * (x + y) ≤ rnd (x + y) ∧ rnd (x + y) ≤ (1 + u) * (x + y) := by
  have := R.add hx hy
  rw [abs_of_nonneg h, abs_le] at this
  constructor <;> linarith [this.1, this.2]

end Auxi.Rounding.IEEE

namespace Auxi.ChemFloat.Proofs
open Auxi Auxi.Chem Auxi.ChemFloat Auxi.ChemFloat.Spec Auxi.Rounding

variable {rnd : ℚ → ℚ} {u η : ℚ}

theorem conv_machine {a : Num} (h : Machine rnd a) : conv rnd a = a.val := by
  unfold conv
  split
  · rfl
  · exact h.1

theorem machine_float {x : ℚ} (h : rnd x = x) : Machine rnd ⟨true, x⟩ := ⟨h, Or.inl rfl⟩

theorem machine_zero (R : IEEE rnd u η) : Machine rnd (int 0) := ⟨R.zero, Or.inr rfl⟩

theorem not_floats {a b : Num} (h : ¬ (a.isFloat || b.isFloat) = true) : a.isFloat = false ∧ b.isFloat = false := by
  cases ha : a.isFloat <;> cases hb : b.isFloat <;> simp_all

theorem addN_machine (R : IEEE rnd u η) {a b : Num} (ha : Machine rnd a) (hb : Machine rnd b) :
    (addN rnd a b).val = rnd (a.val + b.val) ∧ Machine rnd (addN rnd a b) ∧ (addN rnd a b).isFloat = (a.isFloat || b.isFloat) := by
  unfold addN
  rw [conv_machine ha, conv_machine hb]
  split
  · next h => exact ⟨rfl, machine_float (R.idem _), h.symm⟩
  · next h =>
    obtain ⟨f, g⟩ := not_floats h
    have ea : a.val = 0 := by rcases ha.2 with h | h; · rw [f] at h; cases h
                              · exact h
    have eb : b.val = 0 := by rcases hb.2 with h | h; · rw [g] at h; cases h
                              · exact h
    rw [ea, eb, add_zero, R.zero, f, g]
    exact ⟨rfl, ⟨R.zero, Or.inr rfl⟩, rfl⟩

theorem subN_machine (R : IEEE rnd u η) {a b : Num} (ha : Machine rnd a) (hb : Machine rnd b) :
    (subN rnd a b).val = rnd (a.val - b.val) ∧ Machine rnd (subN rnd a b) := by
  unfold subN
  rw [conv_machine ha, conv_machine hb]
  split
  · exact ⟨rfl, machine_float (R.idem _)⟩
  · next h =>
    obtain ⟨f, g⟩ := not_floats h
    have ea : a.val = 0 := by rcases ha.2 with h | h; · rw [f] at h; cases h
                              · exact h
    have eb : b.val = 0 := by rcases hb.2 with h | h; · rw [g] at h; cases h
                              · exact h
    rw [ea, eb, sub_zero, R.zero]
    exact ⟨rfl, R.zero, Or.inr rfl⟩

theorem mulN_machine (R : IEEE rnd u η) {a b : Num} (ha : Machine rnd a) (hb : Machine rnd b) :
    (mulN rnd a b).val = rnd (a.val * b.val) ∧ Machine rnd (mulN rnd a b) := by
  unfold mulN
  rw [conv_machine ha, conv_machine hb]
  split
  · exact ⟨rfl, machine_float (R.idem _)⟩
  · next h =>
    obtain ⟨f, g⟩ := not_floats h
    have ea : a.val = 0 := by rcases ha.2 with h | h; · rw [f] at h; cases h
                              · exact h
    rw [ea, zero_mul, R.zero]
    exact ⟨rfl, R.zero, Or.inr rfl⟩

theorem divN_machine (R : IEEE rnd u η) {a b : Num} (ha : Machine rnd a) (hb : Machine rnd b) (h0 : b.val ≠ 0) :
    divN rnd a b = .ok ⟨true, rnd (a.val / b.val)⟩ := by
  unfold divN
  rw [conv_machine ha, conv_machine hb, if_neg h0]
  split <;> rfl

/-- The sum of machine numbers that are not negative. -/
theorem foldl_bounds (R : IEEE rnd u η) (l : List Num) : ∀ a : Num, Machine rnd a → 0 ≤ a.val → (∀ x ∈ l, Machine rnd x ∧ 0 ≤ x.val) →
    Machine rnd (l.foldl (addN rnd) a) ∧ 0 ≤ (l.foldl (addN rnd) a).val ∧
    (1 - u) ^ l.length * (a.val + (l.map Num.val).sum) ≤ (l.foldl (addN rnd) a).val ∧
    (l.foldl (addN rnd) a).val ≤ (1 + u) ^ l.length * (a.val + (l.map Num.val).sum) := by
  have u0 := R.u0
  have u1 := R.u1
  induction l with
  | nil => intro a ha h0 _; simp [ha, h0]
  | cons x l ih =>
    intro a ha h0 hl
    have hx := hl x List.mem_cons_self
    obtain ⟨e, m, -⟩ := addN_machine R ha hx.1
    have s0 : 0 ≤ a.val + x.val := add_nonneg h0 hx.2
    have n0 : 0 ≤ (addN rnd a x).val := by rw [e]; exact R.nonneg s0
    obtain ⟨m', n', lo, hi⟩ := ih (addN rnd a x) m n0 (fun y hy => hl y (List.mem_cons_of_mem _ hy))
    have b := R.add_bounds ha.1 hx.1.1 s0
    rw [← e] at b
    have S0 : 0 ≤ (l.map Num.val).sum := List.sum_nonneg (by
      intro y hy
      obtain ⟨z, hz, rfl⟩ := List.mem_map.mp hy
      exact (hl z (List.mem_cons_of_mem _ hz)).2)
    have p1 : 0 ≤ (1 - u) ^ l.length := pow_nonneg (by linarith) _
    have p2 : 0 ≤ (1 + u) ^ l.length := pow_nonneg (by linarith) _
    refine ⟨m', n', ?_, ?_⟩
    · refine le_trans ?_ lo
      rw [List.length_cons, pow_succ, mul_assoc]
      apply mul_le_mul_of_nonneg_left _ p1
      simp only [List.map_cons, List.sum_cons]
      nlinarith [b.1]
    · refine le_trans hi ?_
      rw [List.length_cons, pow_succ, mul_assoc]
      apply mul_le_mul_of_nonneg_left _ p2
      simp only [List.map_cons, List.sum_cons]
      nlinarith [b.2]

theorem pySum_bounds (R : IEEE rnd u η) {l : List Num} (hl : ∀ x ∈ l, Machine rnd x ∧ 0 ≤ x.val) :
    Machine rnd (pySum rnd l) ∧ 0 ≤ (pySum rnd l).val ∧ (1 - u) ^ l.length * (l.map Num.val).sum ≤ (pySum rnd l).val ∧
    (pySum rnd l).val ≤ (1 + u) ^ l.length * (l.map Num.val).sum := by
  have := foldl_bounds R l (int 0) (machine_zero R) (le_refl _) hl
  rw [show (int 0).val = 0 from rfl, zero_add] at this
  exact this

/-- Every mass is at most the rounded sum. -/
theorem le_foldl (R : IEEE rnd u η) (l : List Num) : ∀ a : Num, Machine rnd a → 0 ≤ a.val → (∀ x ∈ l, Machine rnd x ∧ 0 ≤ x.val) →
    a.val ≤ (l.foldl (addN rnd) a).val ∧ ∀ x ∈ l, x.val ≤ (l.foldl (addN rnd) a).val := by
  induction l with
  | nil => intro a _ _ _; exact ⟨le_refl _, fun x h => nomatch h⟩
  | cons x l ih =>
    intro a ha h0 hl
    have hx := hl x List.mem_cons_self
    obtain ⟨e, m, -⟩ := addN_machine R ha hx.1
    have n0 : 0 ≤ (addN rnd a x).val := by rw [e]; exact R.nonneg (add_nonneg h0 hx.2)
    obtain ⟨h1, h2⟩ := ih _ m n0 (fun y hy => hl y (List.mem_cons_of_mem _ hy))
    have a1 : a.val ≤ (addN rnd a x).val := by rw [e]; exact R.float_le ha.1 (by linarith [hx.2])
    have a2 : x.val ≤ (addN rnd a x).val := by rw [e]; exact R.float_le hx.1.1 (by linarith)
    refine ⟨a1.trans h1, ?_⟩
    intro y hy
    rcases List.mem_cons.mp hy with rfl | hy
    · exact a2.trans h1
    · exact h2 y hy

/-- Bernoulli. -/
theorem one_sub_pow {u : ℚ} (h0 : 0 ≤ u) (h1 : u < 1) (n : ℕ) : 1 - n * u ≤ (1 - u) ^ n := by
  have := one_add_mul_le_pow (a := -u) (by linarith) n
  rw [show 1 + -u = 1 - u by ring] at this
  linarith

/-- The other side: `(1 + u) ^ n ≤ 1 / (1 - n u)`. -/
theorem one_add_pow {u : ℚ} (h0 : 0 ≤ u) (h1 : u < 1) (n : ℕ) : (1 + u) ^ n * (1 - n * u) ≤ 1 := by
  have a := one_sub_pow h0 h1 n
  have p : 0 ≤ (1 + u) ^ n := pow_nonneg (by linarith) _
  calc (1 + u) ^ n * (1 - n * u) ≤ (1 + u) ^ n * (1 - u) ^ n := mul_le_mul_of_nonneg_left a p
    _ = (1 - u ^ 2) ^ n := by rw [← mul_pow]; congr 1; ring
    _ ≤ 1 := pow_le_one₀ (by nlinarith) (by nlinarith)

theorem sum_le {l : List Num} {f g : Num → ℚ} (h : ∀ x ∈ l, f x ≤ g x) : (l.map f).sum ≤ (l.map g).sum := List.sum_le_sum h

/-- The total of products with a fraction, each rounded. -/
theorem sum_mul (R : IEEE rnd u η) {l : List Num} (hl : ∀ x ∈ l, Machine rnd x ∧ 0 ≤ x.val) {f : ℚ} (hf : 0 ≤ f) :
    (1 - u) * f * (l.map Num.val).sum - l.length * η ≤ (l.map fun x => rnd (x.val * f)).sum ∧
    (l.map fun x => rnd (x.val * f)).sum ≤ (1 + u) * f * (l.map Num.val).sum + l.length * η := by
  induction l with
  | nil => simp
  | cons x l ih =>
    obtain ⟨h1, h2⟩ := ih (fun y hy => hl y (List.mem_cons_of_mem _ hy))
    have hx := (hl x List.mem_cons_self).2
    have b := R.bounds (mul_nonneg hx hf)
    simp only [List.map_cons, List.sum_cons, List.length_cons]
    push_cast
    constructor <;> nlinarith [b.1, b.2]

/-- From the sum's error and two more roundings to the usual bound. -/
theorem quotient_bounds (R : IEEE rnd u η) {n : ℕ} (hn : (n + 2 : ℕ) * u < 1) {M S x : ℚ} (hx : 0 ≤ x) (hM : 0 < M)
    (lo : (1 - u) ^ n * S ≤ M) (hi : M ≤ (1 + u) ^ n * S) :
    (1 + u) ^ 2 * (x / M) * S ≤ x + γ u (n + 2) * x ∧ x - γ u (n + 2) * x ≤ (1 - u) ^ 2 * (x / M) * S := by
  have u0 := R.u0
  have u1 := R.u1
  push_cast at hn
  have nn : (0 : ℚ) ≤ n := Nat.cast_nonneg n
  have nu : 0 ≤ (n : ℚ) * u := mul_nonneg nn u0
  have b1 := one_sub_pow u0 u1 n
  have b2 := one_add_pow u0 u1 n
  have pn : 0 < (1 + u) ^ n := pow_pos (by linarith) _
  have S0 : 0 < S := by
    by_contra h
    have : (1 + u) ^ n * S ≤ 0 := mul_nonpos_of_nonneg_of_nonpos pn.le (not_lt.mp h)
    linarith
  have D : 0 < 1 - ((n + 2 : ℕ) : ℚ) * u := by push_cast; linarith
  have hγ : 1 + γ u (n + 2) = 1 / (1 - ((n + 2 : ℕ) : ℚ) * u) := by unfold γ; field_simp; ring
  have xM : 0 ≤ x / M := div_nonneg hx hM.le
  have xe : x / M * M = x := by field_simp
  constructor
  · -- (1+u)^2 S ≤ M / (1-(n+2)u)
    have k1 : (1 + u) ^ 2 * S * (1 - ((n + 2 : ℕ) : ℚ) * u) ≤ M := by
      have a : (1 + u) ^ 2 * (1 - 2 * u) ≤ 1 := by
        have := one_add_pow u0 u1 2; push_cast at this; exact this
      have b : 1 - ((n + 2 : ℕ) : ℚ) * u ≤ (1 - 2 * u) * (1 - n * u) := by push_cast; nlinarith
      have c : 0 ≤ 1 - (n : ℚ) * u := by linarith
      calc (1 + u) ^ 2 * S * (1 - ((n + 2 : ℕ) : ℚ) * u) ≤ (1 + u) ^ 2 * S * ((1 - 2 * u) * (1 - n * u)) := mul_le_mul_of_nonneg_left b (by positivity)
        _ = ((1 + u) ^ 2 * (1 - 2 * u)) * ((1 - n * u) * S) := by ring
        _ ≤ 1 * ((1 - n * u) * S) := mul_le_mul_of_nonneg_right a (mul_nonneg c S0.le)
        _ ≤ (1 - u) ^ n * S := by rw [one_mul]; exact mul_le_mul_of_nonneg_right b1 S0.le
        _ ≤ M := lo
    have : (1 + u) ^ 2 * (x / M) * S ≤ x * (1 / (1 - ((n + 2 : ℕ) : ℚ) * u)) := by
      rw [mul_one_div, le_div_iff₀ D]
      calc (1 + u) ^ 2 * (x / M) * S * (1 - ((n + 2 : ℕ) : ℚ) * u) = (x / M) * ((1 + u) ^ 2 * S * (1 - ((n + 2 : ℕ) : ℚ) * u)) := by ring
        _ ≤ (x / M) * M := mul_le_mul_of_nonneg_left k1 xM
        _ = x := xe
    rw [← hγ] at this; linarith
  · have k2 : (1 - ((n + 2 : ℕ) : ℚ) * u) * M ≤ (1 - u) ^ 2 * S := by
      have a : 1 - 2 * u ≤ (1 - u) ^ 2 := by nlinarith [sq_nonneg u]
      have b : 1 - ((n + 2 : ℕ) : ℚ) * u ≤ (1 - u) ^ 2 * (1 - n * u) := by
        push_cast
        have : (1 - 2 * u) * (1 - n * u) ≤ (1 - u) ^ 2 * (1 - n * u) := mul_le_mul_of_nonneg_right a (by linarith)
        nlinarith
      have c : (1 - n * u) * M ≤ S := by
        calc (1 - n * u) * M ≤ (1 - n * u) * ((1 + u) ^ n * S) := mul_le_mul_of_nonneg_left hi (by linarith)
          _ = (1 + u) ^ n * (1 - n * u) * S := by ring
          _ ≤ 1 * S := mul_le_mul_of_nonneg_right b2 S0.le
          _ = S := one_mul S
      calc (1 - ((n + 2 : ℕ) : ℚ) * u) * M ≤ (1 - u) ^ 2 * (1 - n * u) * M := mul_le_mul_of_nonneg_right b hM.le
        _ = (1 - u) ^ 2 * ((1 - n * u) * M) := by ring
        _ ≤ (1 - u) ^ 2 * S := mul_le_mul_of_nonneg_left c (sq_nonneg _)
    have g : ((n + 2 : ℕ) : ℚ) * u ≤ γ u (n + 2) := by
      unfold γ
      rw [le_div_iff₀ D]
      have : 0 ≤ ((n + 2 : ℕ) : ℚ) * u := mul_nonneg (Nat.cast_nonneg _) u0
      nlinarith
    calc x - γ u (n + 2) * x ≤ x - ((n + 2 : ℕ) : ℚ) * u * x := by nlinarith
      _ = (x / M) * ((1 - ((n + 2 : ℕ) : ℚ) * u) * M) := by
          have : (x / M) * ((1 - ((n + 2 : ℕ) : ℚ) * u) * M) = (x / M * M) * (1 - ((n + 2 : ℕ) : ℚ) * u) := by ring
          rw [this, xe]; ring
      _ ≤ (x / M) * ((1 - u) ^ 2 * S) := mul_le_mul_of_nonneg_left k2 xM
      _ = (1 - u) ^ 2 * (x / M) * S := by ring

theorem at_map {p : Package} {m : Material} {f : Num → Num} (i : ℕ) (h : (f (int 0)).val = 0) (h2 : ∀ x ∈ p.masses, (f x).val = (f (fl x.val)).val)
    (h3 : (f (fl 0)).val = 0) : at_ ⟨m, p.masses.map f⟩ i = (f (fl (at_ p i))).val := by
  unfold at_
  simp only [List.map_map, List.getD_eq_getElem?_getD, List.getElem?_map]
  cases hi : p.masses[i]? with
  | none => simp [h3]
  | some x => simp [h2 x (List.mem_of_getElem? hi)]

theorem at_set {p : Package} {m : Material} {i j : ℕ} {x : Num} (hi : i < p.masses.length) :
    at_ ⟨m, p.masses.set i x⟩ j = if j = i then x.val else at_ p j := by
  unfold at_
  simp only [List.getD_eq_getElem?_getD, List.getElem?_map, List.getElem?_set]
  by_cases h : i = j
  · subst h; simp [hi]
  · rw [if_neg h, if_neg (Ne.symm h)]

end Auxi.ChemFloat.Proofs
