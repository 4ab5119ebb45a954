import Verif.Spec.PsdFloat
import Verif.Proofs.Psd
import Verif.Proofs.ChemFloat

/-! # Lemmas on psd and slurry packages in floating point -/
namespace Auxi.PsdFloat.Proofs
open Auxi Auxi.Psd Auxi.Psd.Spec Auxi.Rounding Auxi.PsdFloat Auxi.PsdFloat.Spec

variable {rnd : ℚ → ℚ} {S : List ℚ → ℚ} {u η : ℚ}

/-- Floats that are not negative. -/
def Floats (rnd : ℚ → ℚ) (l : List ℚ) : Prop := ∀ q ∈ l, rnd q = q ∧ 0 ≤ q

theorem floats_sum {l : List ℚ} (h : Floats rnd l) : 0 ≤ l.sum := List.sum_nonneg (fun q hq => (h q hq).2)

/-- However the numbers are added up, the sum is right within one rounding for each. -/
theorem adds_spec (R : IEEE rnd u η) {l : List ℚ} {a : ℚ} (h : Adds rnd l a) : Floats rnd l →
    rnd a = a ∧ 0 ≤ a ∧ (1 - u) ^ l.length * l.sum ≤ a ∧ a ≤ (1 + u) ^ l.length * l.sum ∧ ∀ x ∈ l, x ≤ a := by
  have u0 := R.u0
  have u1 := R.u1
  induction h with
  | none => intro _; simp [R.zero]
  | one x =>
    intro h
    obtain ⟨h1, h2⟩ := h x List.mem_cons_self
    refine ⟨h1, h2, ?_, ?_, ?_⟩
    · simp; nlinarith
    · simp; nlinarith
    · simp
  | @both l m a b _ _ ih1 ih2 =>
    intro h
    have hl : Floats rnd l := fun q hq => h q (List.mem_append_left _ hq)
    have hm : Floats rnd m := fun q hq => h q (List.mem_append_right _ hq)
    obtain ⟨a1, a2, a3, a4, a5⟩ := ih1 hl
    obtain ⟨b1, b2, b3, b4, b5⟩ := ih2 hm
    have la : a ≤ rnd (a + b) := R.float_le a1 (by linarith)
    have lb : b ≤ rnd (a + b) := R.float_le b1 (by linarith)
    have n1 := floats_sum hl
    have n2 := floats_sum hm
    have bd := R.add_bounds a1 b1 (by linarith)
    refine ⟨R.idem _, R.nonneg (by linarith), ?_, ?_, ?_⟩
    · rw [List.length_append, List.sum_append]
      rcases l with _ | ⟨x, l⟩
      · simp only [List.length_nil, Nat.zero_add, List.sum_nil, zero_add] at a4 ⊢
        exact b3.trans lb
      rcases m with _ | ⟨y, m⟩
      · simp only [List.length_nil, Nat.add_zero, List.sum_nil, add_zero] at b4 ⊢
        exact a3.trans la
      have q0 : (0 : ℚ) ≤ 1 - u := by linarith
      have q1 : 1 - u ≤ 1 := by linarith
      have e1 : (1 - u) ^ ((x :: l).length + (y :: m).length) ≤ (1 - u) * (1 - u) ^ (x :: l).length := by
        rw [← pow_succ']; exact pow_le_pow_of_le_one q0 q1 (by simp)
      have e2 : (1 - u) ^ ((x :: l).length + (y :: m).length) ≤ (1 - u) * (1 - u) ^ (y :: m).length := by
        rw [← pow_succ']; exact pow_le_pow_of_le_one q0 q1 (by simp; omega)
      have f1 := mul_le_mul_of_nonneg_right e1 n1
      have f2 := mul_le_mul_of_nonneg_right e2 n2
      have g1 := mul_le_mul_of_nonneg_left a3 q0
      have g2 := mul_le_mul_of_nonneg_left b3 q0
      linarith [bd.1]
    · rw [List.length_append, List.sum_append]
      rcases l with _ | ⟨x, l⟩
      · simp only [List.length_nil, Nat.zero_add, List.sum_nil, mul_zero, zero_add] at a4 ⊢
        have : a = 0 := le_antisymm a4 a2
        rw [this, zero_add, b1]; exact b4
      rcases m with _ | ⟨y, m⟩
      · simp only [List.length_nil, Nat.add_zero, List.sum_nil, mul_zero, add_zero] at b4 ⊢
        have : b = 0 := le_antisymm b4 b2
        rw [this, add_zero, a1]; exact a4
      have q1 : 1 ≤ 1 + u := by linarith
      have e1 : (1 + u) * (1 + u) ^ (x :: l).length ≤ (1 + u) ^ ((x :: l).length + (y :: m).length) := by
        rw [← pow_succ']; exact pow_le_pow_right₀ q1 (by simp)
      have e2 : (1 + u) * (1 + u) ^ (y :: m).length ≤ (1 + u) ^ ((x :: l).length + (y :: m).length) := by
        rw [← pow_succ']; exact pow_le_pow_right₀ q1 (by simp; omega)
      have f1 := mul_le_mul_of_nonneg_right e1 n1
      have f2 := mul_le_mul_of_nonneg_right e2 n2
      have g1 := mul_le_mul_of_nonneg_left a4 (show (0 : ℚ) ≤ 1 + u by linarith)
      have g2 := mul_le_mul_of_nonneg_left b4 (show (0 : ℚ) ≤ 1 + u by linarith)
      linarith [bd.2]
    · intro x hx
      rcases List.mem_append.1 hx with hx | hx
      · exact (a5 x hx).trans la
      · exact (b5 x hx).trans lb
  | @order l m a hp _ ih =>
    intro h
    obtain ⟨a1, a2, a3, a4, a5⟩ := ih (fun q hq => h q (hp.mem_iff.1 hq))
    rw [hp.length_eq, hp.sum_eq] at a3 a4
    exact ⟨a1, a2, a3, a4, fun x hx => a5 x (hp.mem_iff.2 hx)⟩

theorem sound_iff {p : Package} : Sound rnd p ↔ ∃ l, p.masses = lift l ∧ Floats rnd l := by
  obtain ⟨m, ms⟩ := p
  unfold Sound Floats
  dsimp only
  constructor
  · intro h
    induction ms with
    | nil => exact ⟨[], rfl, fun q hq => by cases hq⟩
    | cons x ms ih =>
      obtain ⟨l, hl, hf⟩ := ih (fun y hy => h y (List.mem_cons_of_mem _ hy))
      obtain ⟨q, rfl, h1, h2⟩ := h x List.mem_cons_self
      refine ⟨q :: l, by rw [hl]; rfl, ?_⟩
      intro y hy
      rcases List.mem_cons.1 hy with rfl | hy
      · exact ⟨h1, h2⟩
      · exact hf y hy
  · rintro ⟨l, rfl, hf⟩ x hx
    obtain ⟨q, hq, rfl⟩ := List.mem_map.1 hx
    exact ⟨q, rfl, hf q hq⟩

theorem values_lift (l : List ℚ) : values (lift l) = some l := by
  induction l with
  | nil => rfl
  | cons a l ih =>
    change (values (lift l)).map (a :: ·) = _
    rw [ih]; rfl

theorem arraySum_lift (l : List ℚ) : arraySum S (lift l) = .fin (S l) := by unfold arraySum; rw [values_lift]

theorem mul_lift (l : List ℚ) (k : ℚ) : (lift l).map (mulF rnd · (.fin k)) = lift (l.map fun x => rnd (x * k)) := by
  simp only [lift, List.map_map]
  rfl

/-- Numbering of size classes, seen through a map that keeps zero. -/
theorem content_map (m : Material) (l : List ℚ) {f : ℚ → ℚ} (h0 : f 0 = 0) (c : ℚ) : content ⟨m, lift (l.map f)⟩ c = f (content ⟨m, lift l⟩ c) := by
  rw [content_lift (p := ⟨m, lift (l.map f)⟩) rfl, content_lift (p := ⟨m, lift l⟩) rfl]
  cases indexOf m.classes c with
  | none => exact h0.symm
  | some i =>
    simp only [Option.bind_some, List.getElem?_map]
    cases l[i]? with
    | none => exact h0.symm
    | some x => rfl

theorem content_good {m : Material} {l : List ℚ} (R : IEEE rnd u η) (h : Floats rnd l) (c : ℚ) : rnd (content ⟨m, lift l⟩ c) = content ⟨m, lift l⟩ c ∧ 0 ≤ content ⟨m, lift l⟩ c := by
  rw [content_lift (p := ⟨m, lift l⟩) rfl]
  cases indexOf m.classes c with
  | none => exact ⟨R.zero, le_rfl⟩
  | some i =>
    simp only [Option.bind_some]
    cases hx : l[i]? with
    | none => exact ⟨R.zero, le_rfl⟩
    | some x => exact h x (List.mem_of_getElem? hx)

/-- A mass split by a fraction. -/
theorem split_scalar (R : IEEE rnd u η) {m f : ℚ} (hm : rnd m = m) (m0 : 0 ≤ m) (hf : rnd f = f) (f0 : 0 ≤ f) (f1 : f ≤ 1) :
    0 ≤ rnd (m * f) ∧ rnd (m * f) ≤ m ∧ 0 ≤ rnd (m * rnd (1 - f)) ∧ rnd (m * rnd (1 - f)) ≤ m ∧ |rnd (m * f) + rnd (m * rnd (1 - f)) - m| ≤ (2 * u + u ^ 2) * m + 2 * η := by
  have u0 := R.u0
  have η0 := R.η0
  have g0 : 0 ≤ rnd (1 - f) := R.nonneg (by linarith)
  have g1 : rnd (1 - f) ≤ 1 := R.le_float R.one (by linarith)
  refine ⟨R.nonneg (mul_nonneg m0 f0), R.le_float hm (by nlinarith), R.nonneg (mul_nonneg m0 g0), R.le_float hm (by nlinarith), ?_⟩
  have e1 := R.err (m * f)
  have e2 := R.err (m * rnd (1 - f))
  rw [abs_of_nonneg (mul_nonneg m0 f0)] at e1
  rw [abs_of_nonneg (mul_nonneg m0 g0)] at e2
  have e3 := R.sub R.one hf
  rw [abs_of_nonneg (by linarith : (0 : ℚ) ≤ 1 - f)] at e3
  rw [abs_le] at e1 e2 e3 ⊢
  generalize rnd (m * rnd (1 - f)) = B at *
  generalize rnd (m * f) = A at *
  generalize rnd (1 - f) = G at *
  have t1 : m * G ≤ m * (1 - f) + u * (m * (1 - f)) := by nlinarith [mul_le_mul_of_nonneg_left e3.2 m0]
  have t2 : m * (1 - f) - u * (m * (1 - f)) ≤ m * G := by nlinarith [mul_le_mul_of_nonneg_left e3.1 m0]
  have t3 : u * (m * G) ≤ u * (m * (1 - f) + u * (m * (1 - f))) := mul_le_mul_of_nonneg_left t1 u0
  have t4 : m * (1 - f) ≤ m := by nlinarith
  have t5 : 0 ≤ m * f := mul_nonneg m0 f0
  have t7 : u * (u * (m * (1 - f))) ≤ u * (u * m) := mul_le_mul_of_nonneg_left (mul_le_mul_of_nonneg_left t4 u0) u0
  have t8 : u * (m * (1 - f)) ≤ u * m := mul_le_mul_of_nonneg_left t4 u0
  constructor <;> nlinarith [e1.1, e1.2, e2.1, e2.2]

/-- A mass taken out of a mass. -/
theorem take_scalar (R : IEEE rnd u η) {m x : ℚ} (hm : rnd m = m) (m0 : 0 ≤ m) (hx : rnd x = x) (x0 : 0 ≤ x) (le : x ≤ m) :
    0 ≤ rnd (m - x) ∧ rnd (m - x) ≤ m ∧ |x + rnd (m - x) - m| ≤ (2 * u + u ^ 2) * m + 2 * η := by
  have u0 := R.u0
  have η0 := R.η0
  refine ⟨R.nonneg (by linarith), R.le_float hm (by linarith), ?_⟩
  have e1 := R.sub hm hx
  rw [abs_of_nonneg (by linarith : 0 ≤ m - x)] at e1
  rw [show x + rnd (m - x) - m = rnd (m - x) - (m - x) by ring]
  refine e1.trans ?_
  have : u * (m - x) ≤ u * m := mul_le_mul_of_nonneg_left (by linarith) u0
  nlinarith [mul_nonneg u0 m0, mul_nonneg u0 (mul_nonneg u0 m0)]

/-- The fraction of an extraction. -/
theorem fraction_spec (R : IEEE rnd u η) {x M : ℚ} (x0 : 0 ≤ x) (M0 : 0 < M) (le : x ≤ M) : rnd (rnd (x / M)) = rnd (x / M) ∧ 0 ≤ rnd (x / M) ∧ rnd (x / M) ≤ 1 :=
  ⟨R.idem _, R.nonneg (div_nonneg x0 M0.le), R.le_float R.one (by rw [div_le_one M0]; exact le)⟩

theorem divF_fin {a b : ℚ} (h : b ≠ 0) : divF rnd (.fin a) (.fin b) = .fin (rnd (a / b)) := by unfold divF F64.div; dsimp only; rw [if_neg h]; rfl

theorem floats_map (R : IEEE rnd u η) {l : List ℚ} (h : Floats rnd l) {k : ℚ} (k0 : 0 ≤ k) : Floats rnd (l.map fun x => rnd (x * k)) := by
  intro q hq
  obtain ⟨x, hx, rfl⟩ := List.mem_map.1 hq
  exact ⟨R.idem _, R.nonneg (mul_nonneg (h x hx).2 k0)⟩

theorem floats_set {l : List ℚ} (h : Floats rnd l) {i : ℕ} {x : ℚ} (hx : rnd x = x ∧ 0 ≤ x) : Floats rnd (l.set i x) := by
  intro q hq
  rcases List.mem_or_eq_of_mem_set hq with hq | rfl
  · exact h q hq
  · exact hx

end Auxi.PsdFloat.Proofs
