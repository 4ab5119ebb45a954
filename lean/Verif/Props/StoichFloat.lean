import Verif.Proofs.StoichFloat2
import Verif.Proofs.Rounding

/-! # C137: stoichiometry in floating point -/
namespace Auxi.StoichFloat.Props
open Auxi Auxi.Stoich Auxi.Stoich.Spec Auxi.Stoich.Props Auxi.Rounding Auxi.StoichFloat Auxi.StoichFloat.Spec

variable {rnd : ℚ → ℚ} {u η v t N : ℚ}

/-- The doubles of the machine: relative error 2^-52 from 2^-1022 on, whole numbers up to 2^53. -/
theorem arith64 : Arith rnd64 (pow2 (-53)) (pow2 (-1075)) (pow2 (-52)) (pow2 (-1022)) (2 ^ 53) where
  ieee := ieee64
  uv := pow2_le (by norm_num)
  v1 := by rw [pow2_eq]; norm_num
  t0 := pow2_pos _
  tf := rnd64_isF (isF_pow2 (by norm_num))
  tη := by
    have h1 : pow2 (-52) - pow2 (-53) = pow2 (-53) := by rw [pow2_eq, pow2_eq]; norm_num
    rw [h1, ← pow2_add]; norm_num
  whole := by
    intro n hn
    refine rnd64_isF ⟨n, 0, ?_, by norm_num, by rw [pow2_eq]; simp⟩
    rw [Nat.abs_cast]
    exact_mod_cast hn
  N1 := by norm_num
  room := by
    have h : (2 : ℚ) ^ 17 * 2 ^ 53 = pow2 70 := by rw [pow2_eq]; norm_num
    rw [h, ← pow2_add, show (1 : ℚ) = pow2 0 by rw [pow2_eq]; norm_num]
    exact pow2_le (by norm_num)

/-! ## Coefficients and molar masses -/

theorem get_lift (d : Counts) (k : Str) : get (lift d) k = d.get k := by
  unfold get Counts.get lift
  induction d with
  | nil => rfl
  | cons a d ih =>
    obtain ⟨k', x⟩ := a
    rw [List.map_cons, List.lookup_cons, List.lookup_cons]
    cases (k == k')
    · exact ih
    · rfl

/-- **C137 (coefficients).** Numbers of atoms are exact, as long as none is above the largest whole number up to which floats are exact (2^53). -/
theorem C137_coefficient (A : Arith rnd u η v t N) (s e : Str) (hS : Small N s) : coefficient rnd s e = Stoich.coefficient s e := by
  unfold coefficient Stoich.coefficient
  cases h : parseCompound (strip s) with
  | error e => rfl
  | ok c =>
    simp only [Except.map]
    rw [compoundCount_lift A.ieee.zero A.whole h (below_of_small h hS), get_lift]

/-- **C137 (molar mass).** A molar mass is calculated exactly when there is one, and then it is right within two roundings and one for each element. -/
theorem C137_molar_mass (A : Arith rnd u η v t N) (s : Str) (hS : Small N s) :
    (∀ e, Stoich.molarMass s = .error e → molarMass rnd s = .error e) ∧
      ∀ x, Stoich.molarMass s = .ok x → ∃ y, molarMass rnd s = .ok y ∧ Within v (kinds s + 2) x y := by
  rcases molarMass_cases A s hS with ⟨e, h1, h2⟩ | ⟨x, y, h1, h2, -, h3, -⟩
  · exact ⟨fun e' h => by rw [h1] at h; cases h; exact h2, fun x h => by rw [h1] at h; cases h⟩
  · exact ⟨fun e' h => by (rw [h1] at h; cases h), fun x' h => by rw [h1] at h; cases h; exact ⟨y, h2, h3⟩⟩

/-! ## Amounts and masses -/

theorem given_nonneg (A : Arith rnd u η v t N) {m : ℚ} (h : Given rnd t N m) : 0 ≤ m := by
  have := A.N0; have := A.t0
  rcases h.2 with h | h
  · exact h.ge
  · exact le_trans (by positivity) h

theorem amount_cases (A : Arith rnd u η v t N) (s : Str) (m : ℚ) (hS : Small N s) (hm : Given rnd t N m) :
    (∃ e, Stoich.amount s m = .error e ∧ amount rnd s m = .error e) ∨
    ∃ a b, Stoich.amount s m = .ok a ∧ amount rnd s m = .ok b ∧ rnd b = b ∧ Within v (kinds s + 3) a b ∧ b ≤ m ∧ (m = 0 → b = 0) ∧ m ≤ b * (2 ^ 17 * N) := by
  have m0 := given_nonneg A hm
  have N0 := A.N0; have t0 := A.t0; have v1 := A.v1; have v0 := A.v0
  rcases molarMass_cases A s hS with ⟨e, h1, h2⟩ | ⟨x, y, h1, h2, hf, hw, hle, h0, hge⟩
  · exact .inl ⟨e, by unfold Stoich.amount; rw [h1], by unfold amount; rw [h2]⟩
  · unfold Stoich.amount amount
    rw [h1, h2]
    dsimp only
    by_cases hx : x = 0
    · rw [if_pos hx, if_pos (h0.1 hx)]; exact .inl ⟨_, rfl, rfl⟩
    · have hy : y ≠ 0 := fun h => hx (h0.2 h)
      rw [if_neg hx, if_neg hy]
      have y1 := hge hy
      have y0 : 0 < y := by linarith
      refine .inr ⟨m / x, rnd (m / y), rfl, rfl, A.ieee.idem _, ?_⟩
      have q : m = 0 ∨ t ≤ m / y := by
        refine hm.2.imp id (fun h => ?_)
        rw [le_div_iff₀ y0]
        have h1 : t * y ≤ t * (2 ^ 16 * N) := mul_le_mul_of_nonneg_left hle t0.le
        have h2 : t * (2 ^ 16 * N) ≤ t * (2 ^ 17 * N) := mul_le_mul_of_nonneg_left (by nlinarith) t0.le
        linarith
      have w1 : Within v 1 (m / y) (rnd (m / y)) := within_round A (q.imp (fun h => by rw [h, zero_div]) id)
      have w2 : Within v (kinds s + 2) (m / x) (m / y) := by
        have := (Within.self (v := v) m0).div A hw hx
        rwa [Nat.zero_add] at this
      refine ⟨(w2.trans A w1).mono A (by omega), A.ieee.le_float hm.1 (by rw [div_le_iff₀ y0]; nlinarith), fun h => by rw [h, zero_div, A.ieee.zero], ?_⟩
      have h3 := w1.2.1
      rw [pow_one, div_mul_eq_mul_div, div_le_iff₀ y0] at h3
      have h4 : rnd (m / y) * y ≤ rnd (m / y) * (2 ^ 16 * N) := mul_le_mul_of_nonneg_left hle (w1.nonneg A)
      have h5 : m * (1 / 2) ≤ m * (1 - v) := mul_le_mul_of_nonneg_left (by linarith) m0
      have : rnd (m / y) * (2 ^ 17 * N) = 2 * (rnd (m / y) * (2 ^ 16 * N)) := by ring
      linarith

theorem mass_cases (A : Arith rnd u η v t N) (s : Str) (n : ℚ) (hS : Small N s) (hn : Given rnd t N n) :
    (∃ e, Stoich.mass s n = .error e ∧ mass rnd s n = .error e) ∨
    ∃ a b, Stoich.mass s n = .ok a ∧ mass rnd s n = .ok b ∧ rnd b = b ∧ Within v (kinds s + 3) a b ∧ b ≤ n * (2 ^ 17 * N) ∧ (n = 0 → b = 0) ∧ (b = 0 ∨ n ≤ b) := by
  have n0 := given_nonneg A hn
  have N0 := A.N0; have t0 := A.t0; have v1 := A.v1; have v0 := A.v0; have N1 := A.N1
  rcases molarMass_cases A s hS with ⟨e, h1, h2⟩ | ⟨x, y, h1, h2, hf, hw, hle, h0, hge⟩
  · exact .inl ⟨e, by unfold Stoich.mass; rw [h1]; rfl, by unfold mass; rw [h2]; rfl⟩
  · unfold Stoich.mass mass
    rw [h1, h2]
    refine .inr ⟨n * x, rnd (n * y), rfl, rfl, A.ieee.idem _, ?_⟩
    have q : n * y = 0 ∨ (n ≤ n * y ∧ t ≤ n * y) := by
      by_cases hy : y = 0
      · left; rw [hy, mul_zero]
      · have y1 := hge hy
        rcases hn.2 with h | h
        · left; rw [h, zero_mul]
        · right
          have a1 : n ≤ n * y := by nlinarith
          have a2 : t ≤ t * (2 ^ 17 * N) := by nlinarith
          exact ⟨a1, by linarith⟩
    have w1 : Within v 1 (n * y) (rnd (n * y)) := within_round A (q.imp id (·.2))
    have w2 : Within v (kinds s + 2) (n * x) (n * y) := by
      have := (Within.self (v := v) n0).mul A hw
      rwa [Nat.zero_add] at this
    refine ⟨(w2.trans A w1).mono A (by omega), ?_, fun h => by rw [h, zero_mul, A.ieee.zero], ?_⟩
    · have h3 := w1.2.2
      rw [pow_one] at h3
      have h4 : n * y ≤ n * (2 ^ 16 * N) := mul_le_mul_of_nonneg_left hle n0
      have h5 : rnd (n * y) * (1 / 2) ≤ rnd (n * y) * (1 - v) := mul_le_mul_of_nonneg_left (by linarith) (w1.nonneg A)
      have : n * (2 ^ 17 * N) = 2 * (n * (2 ^ 16 * N)) := by ring
      linarith
    · rcases q with q | q
      · left; rw [q, A.ieee.zero]
      · right; exact A.ieee.float_le hn.1 q.1

/-- **C137 (amount).** The amount in a mass of a compound is calculated exactly when it exists, and is right within a few roundings. -/
theorem C137_amount (A : Arith rnd u η v t N) (s : Str) (m : ℚ) (hS : Small N s) (hm : Given rnd t N m) :
    (∀ e, Stoich.amount s m = .error e → amount rnd s m = .error e) ∧
      ∀ x, Stoich.amount s m = .ok x → ∃ y, amount rnd s m = .ok y ∧ Within v (kinds s + 3) x y := by
  rcases amount_cases A s m hS hm with ⟨e, h1, h2⟩ | ⟨a, b, h1, h2, -, h3, -⟩
  · exact ⟨fun e' h => by rw [h1] at h; cases h; exact h2, fun x h => by rw [h1] at h; cases h⟩
  · exact ⟨fun e' h => by (rw [h1] at h; cases h), fun x' h => by rw [h1] at h; cases h; exact ⟨b, h2, h3⟩⟩

/-- **C137 (mass).** So is the mass of an amount of a compound. -/
theorem C137_mass (A : Arith rnd u η v t N) (s : Str) (n : ℚ) (hS : Small N s) (hn : Given rnd t N n) :
    (∀ e, Stoich.mass s n = .error e → mass rnd s n = .error e) ∧
      ∀ x, Stoich.mass s n = .ok x → ∃ y, mass rnd s n = .ok y ∧ Within v (kinds s + 3) x y := by
  rcases mass_cases A s n hS hn with ⟨e, h1, h2⟩ | ⟨a, b, h1, h2, -, h3, -⟩
  · exact ⟨fun e' h => by rw [h1] at h; cases h; exact h2, fun x h => by rw [h1] at h; cases h⟩
  · exact ⟨fun e' h => by (rw [h1] at h; cases h), fun x' h => by rw [h1] at h; cases h; exact ⟨b, h2, h3⟩⟩

/-- **C137 (round trips).** The mass of the amount in a mass is that mass within two roundings, whatever the compound, and the amount in the mass of an amount is that amount within two. -/
theorem C137_round_trip (A : Arith rnd u η v t N) (s : Str) (hS : Small N s) (m a b : ℚ) (hm : Given rnd t N m) :
    (amount rnd s m = .ok a → mass rnd s a = .ok b → Within v 2 m b) ∧ (mass rnd s m = .ok a → amount rnd s a = .ok b → Within v 2 m b) := by
  have m0 := given_nonneg A hm
  have N0 := A.N0; have t0 := A.t0; have v1 := A.v1; have v0 := A.v0; have N1 := A.N1
  have two : ∀ x, t * (2 ^ 17 * N) ≤ x → 2 * t ≤ x := fun x h => by nlinarith
  unfold amount mass
  rcases molarMass_cases A s hS with ⟨e, -, h2⟩ | ⟨x, y, -, h2, hf, hw, hle, h0, hge⟩
  · rw [h2]
    exact ⟨fun h => by (cases h), fun h => by (cases h)⟩
  · rw [h2]
    simp only [Except.map, Except.ok.injEq]
    refine ⟨fun h h' => ?_, fun h h' => ?_⟩
    · split at h
      · cases h
      · rename_i hy
        have y1 := hge hy
        have y0 : 0 < y := by linarith
        cases h
        subst h'
        have q : m = 0 ∨ t ≤ m / y := by
          refine hm.2.imp id (fun h => ?_)
          rw [le_div_iff₀ y0]
          have h1 : t * y ≤ t * (2 ^ 16 * N) := mul_le_mul_of_nonneg_left hle t0.le
          have h2 : t * (2 ^ 16 * N) ≤ t * (2 ^ 17 * N) := mul_le_mul_of_nonneg_left (by nlinarith) t0.le
          linarith
        have w1 : Within v 1 (m / y) (rnd (m / y)) := within_round A (q.imp (fun h => by rw [h, zero_div]) id)
        have w2 := w1.mul A (Within.self (v := v) y0.le)
        rw [div_mul_cancel₀ _ hy] at w2
        refine w2.trans A (within_round A ?_)
        rcases hm.2 with h | h
        · left; rw [h, zero_div, A.ieee.zero, zero_mul]
        · right
          have := two m h
          have := w2.2.1
          rw [Nat.add_zero, pow_one] at this
          nlinarith
    · subst h
      split at h'
      · cases h'
      · rename_i hy
        have y1 := hge hy
        have y0 : 0 < y := by linarith
        cases h'
        have a1 : m ≤ m * y := by nlinarith
        have w1 : Within v 1 (m * y) (rnd (m * y)) := within_round A (hm.2.imp (fun h => by rw [h, zero_mul]) (fun h => by have := two m h; linarith))
        have w2 := w1.div A (Within.self (v := v) y0.le) hy
        rw [mul_div_cancel_right₀ _ hy] at w2
        refine w2.trans A (within_round A ?_)
        rcases hm.2 with h | h
        · left; rw [h, zero_mul, A.ieee.zero, zero_div]
        · right
          have := two m h
          have := w2.2.1
          rw [Nat.add_zero, pow_one] at this
          nlinarith

end Auxi.StoichFloat.Props
