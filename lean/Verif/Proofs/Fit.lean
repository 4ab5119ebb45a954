import Verif.Spec.Fit
import Mathlib.Analysis.InnerProductSpace.PiL2
import Mathlib.Analysis.InnerProductSpace.Projection.Minimal
import Mathlib.Algebra.Polynomial.Eval.SMul
import Mathlib.Tactic.Linarith

/-! # Proofs about fitted models -/
namespace Auxi.Fit.Proofs
open Auxi.Fit Auxi.Fit.Spec Polynomial Phys

theorem foldl_value (cs : List ℝ) (T : ℝ) : ∀ a : ℝ, cs.foldl (fun acc c => acc * T + c) a = a * T ^ cs.length + value cs T := by
  induction cs with
  | nil => intro a; simp [value]
  | cons c cs ih => intro a; rw [List.foldl_cons, ih]; simp only [value, List.length_cons, pow_succ]; ring

/-- Horner's scheme computes the value. -/
theorem polyval_value (cs : List ℝ) (T : ℝ) : polyval cs T = value cs T := by
  unfold polyval; rw [foldl_value]; ring

/-- The polynomial with given coefficients. -/
noncomputable def toPoly : List ℝ → ℝ[X]
  | [] => 0
  | c :: cs => C c * X ^ cs.length + toPoly cs

theorem eval_toPoly (cs : List ℝ) (T : ℝ) : (toPoly cs).eval T = value cs T := by
  induction cs with
  | nil => simp [toPoly, value]
  | cons c cs ih => simp [toPoly, value, ih]

theorem natDegree_toPoly (cs : List ℝ) (n : Nat) (h : cs.length ≤ n + 1) : (toPoly cs).natDegree ≤ n := by
  induction cs generalizing n with
  | nil => simp [toPoly]
  | cons c cs ih =>
    unfold toPoly
    simp only [List.length_cons] at h
    refine (natDegree_add_le _ _).trans (max_le ?_ (ih n (by omega)))
    exact (natDegree_C_mul_X_pow_le _ _).trans (by omega)

theorem toPoly_surj (n : Nat) (p : ℝ[X]) (h : p.natDegree ≤ n) : ∃ cs, cs.length = n + 1 ∧ toPoly cs = p := by
  have key : ∀ k : Nat, ∃ cs : List ℝ, cs.length = k ∧ toPoly cs = ∑ i ∈ Finset.range k, C (p.coeff i) * X ^ i := by
    intro k
    induction k with
    | zero => exact ⟨[], rfl, by simp [toPoly]⟩
    | succ k ih =>
      obtain ⟨cs, hl, hp⟩ := ih
      refine ⟨p.coeff k :: cs, by simp [hl], ?_⟩
      rw [Finset.sum_range_succ, toPoly, hp, hl, add_comm]
  obtain ⟨cs, hl, hp⟩ := key (n + 1)
  refine ⟨cs, hl, ?_⟩
  rw [hp]
  exact (p.as_sum_range_C_mul_X_pow' (by omega)).symm

theorem squares_nonneg (f : ℝ → ℝ) (l : List (ℝ × ℝ)) : 0 ≤ squares f l := by
  unfold squares
  apply List.sum_nonneg
  intro x hx
  rw [List.mem_map] at hx
  obtain ⟨r, _, rfl⟩ := hx
  positivity

theorem squares_zero (f : ℝ → ℝ) (l : List (ℝ × ℝ)) (h : squares f l ≤ 0) : ∀ r ∈ l, f r.1 = r.2 := by
  induction l with
  | nil => simp
  | cons a l ih =>
    have e : squares f (a :: l) = (f a.1 - a.2) ^ 2 + squares f l := by simp [squares]
    have h1 := squares_nonneg f l
    have h2 := sq_nonneg (f a.1 - a.2)
    rw [e] at h
    intro r hr
    rcases List.mem_cons.1 hr with rfl | hr
    · have : (f r.1 - r.2) ^ 2 = 0 := by linarith
      have := pow_eq_zero_iff (n := 2) (by norm_num) |>.1 this
      linarith
    · exact ih (by linarith) r hr

theorem squares_perm (f : ℝ → ℝ) {l l' : List (ℝ × ℝ)} (h : l.Perm l') : squares f l = squares f l' :=
  (h.map _).sum_eq

/-- The parallelogram law for the distances. -/
theorem squares_mid (f g : ℝ → ℝ) (l : List (ℝ × ℝ)) :
    squares (fun t => (f t + g t) / 2) l + squares (fun t => (f t - g t) / 2) (l.map (fun r => (r.1, 0))) = (squares f l + squares g l) / 2 := by
  unfold squares
  induction l with
  | nil => simp
  | cons a l ih => simp only [List.map_cons, List.sum_cons, List.map_map] at ih ⊢; linarith [ih, show ((f a.1 + g a.1) / 2 - a.2) ^ 2 + ((f a.1 - g a.1) / 2 - 0) ^ 2 = ((f a.1 - a.2) ^ 2 + (g a.1 - a.2) ^ 2) / 2 by ring]

/-- Two nearest polynomials have the same values at the data. -/
theorem nearest_agree (n : Nat) (l : List (ℝ × ℝ)) (p q : ℝ[X]) (hp : p.natDegree ≤ n) (hq : q.natDegree ≤ n)
    (mp : ∀ r : ℝ[X], r.natDegree ≤ n → squares (fun T => p.eval T) l ≤ squares (fun T => r.eval T) l)
    (mq : ∀ r : ℝ[X], r.natDegree ≤ n → squares (fun T => q.eval T) l ≤ squares (fun T => r.eval T) l) :
    ∀ r ∈ l, p.eval r.1 = q.eval r.1 := by
  have hm := squares_mid (fun T => p.eval T) (fun T => q.eval T) l
  have hdeg : (C (1 / 2 : ℝ) * (p + q)).natDegree ≤ n :=
    (natDegree_C_mul_le _ _).trans ((natDegree_add_le _ _).trans (max_le hp hq))
  have h1 := mp _ hdeg
  have h2 := mq _ hdeg
  have e : (fun T => (C (1 / 2 : ℝ) * (p + q)).eval T) = fun T => (p.eval T + q.eval T) / 2 := by
    funext T; simp; ring
  rw [e] at h1 h2
  have hz := squares_zero (fun t => (p.eval t - q.eval t) / 2) (l.map (fun r => (r.1, 0))) (by linarith)
  intro r hr
  have := hz (r.1, 0) (List.mem_map.2 ⟨r, hr, rfl⟩)
  simp only at this
  linarith

/-- With more temperatures than the degree there is one nearest polynomial. -/
theorem nearest_unique (n : Nat) (l : List (ℝ × ℝ)) (p q : ℝ[X]) (hp : p.natDegree ≤ n) (hq : q.natDegree ≤ n)
    (hd : Distinct (n + 1) l) (h : ∀ r ∈ l, p.eval r.1 = q.eval r.1) : p = q := by
  apply Polynomial.eq_of_natDegree_lt_card_of_eval_eq' p q ((l.map (·.1)).toFinset)
  · intro x hx
    rw [List.mem_toFinset, List.mem_map] at hx
    obtain ⟨r, hr, rfl⟩ := hx
    exact h r hr
  · unfold Distinct at hd
    have := max_le hp hq
    omega

/-- A least squares fit exists for all data. -/
theorem exists_nearest (n : Nat) (l : List (ℝ × ℝ)) : ∃ p : ℝ[X], p.natDegree ≤ n ∧
    ∀ q : ℝ[X], q.natDegree ≤ n → squares (fun T => p.eval T) l ≤ squares (fun T => q.eval T) l := by
  let E := EuclideanSpace ℝ (Fin l.length)
  let ev : ℝ[X] →ₗ[ℝ] E :=
    { toFun := fun p => WithLp.toLp 2 (fun i => p.eval (l.get i).1)
      map_add' := by intro p q; ext i; show eval _ (p + q) = eval _ p + eval _ q; simp
      map_smul' := by intro c p; ext i; show eval _ (c • p) = c * eval _ p; rw [eval_smul, smul_eq_mul] }
  let y : E := WithLp.toLp 2 (fun i => (l.get i).2)
  let K : Submodule ℝ E := (Polynomial.degreeLE ℝ n).map ev
  obtain ⟨v, hv, hmin⟩ := Submodule.exists_norm_eq_iInf_of_complete_subspace K (Submodule.complete_of_finiteDimensional K) y
  have hmin' : ∀ w ∈ K, ‖y - v‖ ≤ ‖y - w‖ := by
    intro w hw
    rw [hmin]
    exact ciInf_le ⟨0, by rintro _ ⟨x, rfl⟩; exact norm_nonneg _⟩ (⟨w, hw⟩ : K)
  obtain ⟨p, hp, rfl⟩ := (Submodule.mem_map).1 hv
  have hsq : ∀ q : ℝ[X], squares (fun T => q.eval T) l = ‖y - ev q‖ ^ 2 := by
    intro q
    rw [EuclideanSpace.norm_sq_eq]
    have : ∀ i, ‖(y - ev q) i‖ ^ 2 = (q.eval (l.get i).1 - (l.get i).2) ^ 2 := by
      intro i
      have : (y - ev q) i = (l.get i).2 - q.eval (l.get i).1 := rfl
      rw [this, Real.norm_eq_abs, sq_abs]; ring
    simp only [this]
    unfold squares
    rw [← List.sum_ofFn]
    congr 1
    conv_lhs => rw [← List.ofFn_get l, List.map_ofFn]
    rfl
  refine ⟨p, natDegree_le_of_degree_le (Polynomial.mem_degreeLE.1 hp), ?_⟩
  intro q hq
  rw [hsq, hsq]
  have := hmin' (ev q) (Submodule.mem_map.2 ⟨q, Polynomial.mem_degreeLE.2 (degree_le_of_natDegree_le hq), rfl⟩)
  have h0 := norm_nonneg (y - ev p)
  nlinarith

theorem foldl_min_le (xs : List ℝ) : ∀ a : ℝ, xs.foldl min a ≤ a ∧ (∀ x ∈ xs, xs.foldl min a ≤ x) ∧ (xs.foldl min a = a ∨ xs.foldl min a ∈ xs) := by
  induction xs with
  | nil => intro a; simp
  | cons b xs ih =>
    intro a
    obtain ⟨h1, h2, h3⟩ := ih (min a b)
    rw [List.foldl_cons]
    refine ⟨h1.trans (min_le_left _ _), ?_, ?_⟩
    · intro x hx
      rcases List.mem_cons.1 hx with rfl | hx
      · exact h1.trans (min_le_right _ _)
      · exact h2 x hx
    · rcases h3 with h3 | h3
      · rcases min_choice a b with h | h
        · left; rw [h3, h]
        · right; rw [h3, h]; exact List.mem_cons_self
      · right; exact List.mem_cons_of_mem _ h3

theorem le_foldl_max (xs : List ℝ) : ∀ a : ℝ, a ≤ xs.foldl max a ∧ (∀ x ∈ xs, x ≤ xs.foldl max a) ∧ (xs.foldl max a = a ∨ xs.foldl max a ∈ xs) := by
  induction xs with
  | nil => intro a; simp
  | cons b xs ih =>
    intro a
    obtain ⟨h1, h2, h3⟩ := ih (max a b)
    rw [List.foldl_cons]
    refine ⟨(le_max_left _ _).trans h1, ?_, ?_⟩
    · intro x hx
      rcases List.mem_cons.1 hx with rfl | hx
      · exact (le_max_right _ _).trans h1
      · exact h2 x hx
    · rcases h3 with h3 | h3
      · rcases max_choice a b with h | h
        · left; rw [h3, h]
        · right; rw [h3, h]; exact List.mem_cons_self
      · right; exact List.mem_cons_of_mem _ h3

theorem least_spec (xs : List ℝ) (h : xs ≠ []) : least xs ∈ xs ∧ ∀ x ∈ xs, least xs ≤ x := by
  cases xs with
  | nil => exact absurd rfl h
  | cons a xs =>
    obtain ⟨h1, h2, h3⟩ := foldl_min_le xs a
    refine ⟨?_, ?_⟩
    · show xs.foldl min a ∈ _
      rcases h3 with h3 | h3
      · rw [h3]; exact List.mem_cons_self
      · exact List.mem_cons_of_mem _ h3
    · intro x hx
      rcases List.mem_cons.1 hx with rfl | hx
      · exact h1
      · exact h2 x hx

theorem greatest_spec (xs : List ℝ) (h : xs ≠ []) : greatest xs ∈ xs ∧ ∀ x ∈ xs, x ≤ greatest xs := by
  cases xs with
  | nil => exact absurd rfl h
  | cons a xs =>
    obtain ⟨h1, h2, h3⟩ := le_foldl_max xs a
    refine ⟨?_, ?_⟩
    · show xs.foldl max a ∈ _
      rcases h3 with h3 | h3
      · rw [h3]; exact List.mem_cons_self
      · exact List.mem_cons_of_mem _ h3
    · intro x hx
      rcases List.mem_cons.1 hx with rfl | hx
      · exact h1
      · exact h2 x hx

/-- What a successful `create` has done. -/
theorem create_ok {fit : List ℝ → List ℝ → Nat → List ℝ} {d : DataSet} {symbol : Str} {degree : Int} {m : Model}
    (h : create fit d symbol degree = .ok m) : ∃ xs ys, d.data.lookup "T".toList = some xs ∧ d.data.lookup symbol = some ys ∧
      0 ≤ degree ∧ xs ≠ [] ∧ xs.length = ys.length ∧ m.poly = ⟨fit xs ys degree.toNat, least xs, some (greatest xs)⟩ ∧
      m.material = d.header.material ∧ m.symbol = symbol ∧ m.datasets = [d.name] ∧ m.references = none ∧
      d.header.name symbol = .ok m.property ∧ d.header.displaySymbol symbol = .ok m.displaySymbol ∧ d.header.units symbol = .ok m.units := by
  unfold create DataSet.column polyfit at h
  cases hT : d.data.lookup "T".toList with
  | none => rw [hT] at h; cases h
  | some xs =>
    cases hy : d.data.lookup symbol with
    | none => rw [hT, hy] at h; cases h
    | some ys =>
      rw [hT, hy] at h
      by_cases h0 : degree < 0
      · simp [bind, Except.bind, h0] at h
      by_cases h1 : xs = []
      · simp [bind, Except.bind, h0, h1] at h
      by_cases h2 : xs.length = ys.length
      · cases hn : d.header.name symbol with
        | error e => simp [bind, Except.bind, h0, h1, h2, hn] at h
        | ok n =>
          cases hs : d.header.displaySymbol symbol with
          | error e => simp [bind, Except.bind, h0, h1, h2, hn, hs] at h
          | ok s =>
            cases hu : d.header.units symbol with
            | error e => simp [bind, Except.bind, h0, h1, h2, hn, hs, hu] at h
            | ok u =>
              simp [bind, Except.bind, h0, h1, h2, hn, hs, hu] at h
              subst h
              exact ⟨xs, ys, rfl, rfl, by omega, h1, h2, rfl, rfl, rfl, rfl, rfl, rfl, rfl, rfl⟩
      · simp [bind, Except.bind, h0, h1, h2] at h

end Auxi.Fit.Proofs
