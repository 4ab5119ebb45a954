import Verif.Props.StoichFloatFractions
import Verif.Props.StoichFloatElements

/-! # C137: the doubles of the machine, and cases that meet the hypotheses -/
namespace Auxi.StoichFloat.Props
open Auxi Auxi.Stoich Auxi.Stoich.Spec Auxi.Stoich.Props Auxi.Rounding Auxi.StoichFloat Auxi.StoichFloat.Spec

/-- How to see that the coefficients of a formula are small. -/
theorem small_of {N : ℚ} (hN : 0 ≤ N) {s : Str} {c : Compound} (hp : parseCompound (strip s) = .ok c) (h : ∀ e ∈ c.count, e.2 ≤ N) : Small N s := by
  intro e k hk
  unfold Stoich.coefficient at hk
  rw [hp] at hk
  cases hk
  change c.count.get e ≤ N
  unfold Counts.get
  cases hl : c.count.lookup e with
  | none => exact hN
  | some x =>
    refine h (e, x) ?_
    revert hl
    generalize c.count = l
    induction l with
    | nil => intro hl; cases hl
    | cons a l ih =>
      obtain ⟨k', y⟩ := a
      rw [List.lookup_cons]
      cases hb : e == k' with
      | true => intro hl; cases hl; rw [eq_of_beq hb]; exact List.mem_cons_self
      | false => intro hl; exact List.mem_cons_of_mem _ (ih hl)

/-- How far apart two numbers within `k` roundings of double precision are: less than `k` in 4 · 10^15, for up to a million roundings. -/
theorem double_within {k : ℕ} {x y : ℚ} (h : Within (pow2 (-52)) k x y) (hk : k ≤ 10 ^ 6) : |y - x| ≤ k * x / (4 * 10 ^ 15) := by
  have hv : pow2 (-52) = 1 / 2 ^ 52 := by rw [pow2_eq]; norm_num
  have k6 : (k : ℚ) ≤ 10 ^ 6 := by exact_mod_cast hk
  have k0 : (0 : ℚ) ≤ k := Nat.cast_nonneg k
  have small : (k : ℚ) * pow2 (-52) ≤ 1 / 10 ^ 9 := by
    rw [hv]
    have : (k : ℚ) * (1 / 2 ^ 52) ≤ 10 ^ 6 * (1 / 2 ^ 52) := mul_le_mul_of_nonneg_right k6 (by norm_num)
    exact this.trans (by norm_num)
  have a := h.abs_sub arith64 (by linarith)
  refine a.trans ?_
  have x0 := h.1
  have p : (0 : ℚ) < 1 - k * pow2 (-52) := by linarith
  have q : (k : ℚ) * pow2 (-52) / (1 - k * pow2 (-52)) ≤ k / (4 * 10 ^ 15) := by
    rw [div_le_iff₀ p]
    have : (k : ℚ) / (4 * 10 ^ 15) * (1 - 1 / 10 ^ 9) ≤ k / (4 * 10 ^ 15) * (1 - k * pow2 (-52)) := mul_le_mul_of_nonneg_left (by linarith) (by positivity)
    refine le_trans ?_ this
    have e : (k : ℚ) / (4 * 10 ^ 15) * (1 - 1 / 10 ^ 9) = k * ((1 - 1 / 10 ^ 9) / (4 * 10 ^ 15)) := by ring
    rw [hv, e]
    exact mul_le_mul_of_nonneg_left (by norm_num) k0
  calc _ ≤ k / (4 * 10 ^ 15) * x := mul_le_mul_of_nonneg_right q x0
    _ = _ := by ring

/-- **C137 (doubles).** On the machine the mass fractions of the elements of a compound add up to 1 within one in 4 · 10^15 for each element and one more (the sum being exact here). -/
theorem C137_doubles_sum (s : Str) (E : List Str) (M : ℚ) (hS : Small (2 ^ 53) s) (hE : elements [strip s] = .ok E) (hM : Stoich.molarMass s = .ok M) (h0 : M ≠ 0) (hl : E.length < 10 ^ 6) :
    ∃ fs, elementMassFractions rnd64 s E = .ok fs ∧ fs.length = E.length ∧ |fs.sum - 1| ≤ (E.length + 1) / (4 * 10 ^ 15) := by
  obtain ⟨fs, h1, h2, h3, -⟩ := C137_element_fractions_sum arith64 s E M hS hE hM h0
  refine ⟨fs, h1, h2, ?_⟩
  have := double_within h3 (by omega)
  rw [mul_one] at this
  push_cast at this
  exact this

/-- **C137 (doubles).** On the machine a conversion between compounds is right within one in 4 · 10^15 for each element of either and twelve more; for ordinary compounds that is better than
one in 10^14. -/
theorem C137_doubles_convert (m : ℚ) (src tgt e : Str) (hm : Given rnd64 (pow2 (-1022)) (2 ^ 53) m) (h1 : Small (2 ^ 53) src) (h2 : Small (2 ^ 53) tgt) (x : ℚ)
    (hk : kinds src + kinds tgt ≤ 28) (h : Stoich.convertCompound m src tgt e = .ok x) : ∃ y, convertCompound rnd64 m src tgt e = .ok y ∧ |y - x| ≤ x / 10 ^ 14 := by
  obtain ⟨y, hy, hw⟩ := (C137_convert arith64 m src tgt e hm h1 h2).2 x h
  refine ⟨y, hy, ?_⟩
  have a := double_within (hw.mono arith64 (show _ ≤ 40 by omega)) (by norm_num)
  refine a.trans (le_of_eq ?_)
  push_cast
  ring

/-! ## Cases that meet the hypotheses -/

/-- A check that the coefficients of a formula are small. -/
def smallCheck (s : Str) : Bool := match parseCompound (strip s) with
  | .ok c => c.count.all (fun e => decide (e.2 ≤ 2 ^ 53))
  | .error _ => true

theorem small_of_check {s : Str} (h : smallCheck s = true) : Small (2 ^ 53) s := by
  unfold smallCheck at h
  cases hp : parseCompound (strip s) with
  | error e =>
    intro e k hk
    unfold Stoich.coefficient at hk
    rw [hp] at hk
    cases hk
  | ok c =>
    rw [hp] at h
    exact small_of (by norm_num) hp (fun e he => by simpa using List.all_eq_true.1 h e he)

theorem given_whole {n : ℕ} (h1 : 1 ≤ n) (h : n ≤ 2 ^ 53) : Given rnd64 (pow2 (-1022)) (2 ^ 53) n := by
  refine ⟨arith64.whole n (by exact_mod_cast h), .inr ?_⟩
  have a := arith64.room
  have : (1 : ℚ) ≤ n := by exact_mod_cast h1
  exact a.trans this

theorem haematite : Small (2 ^ 53) "Fe2O3".toList := small_of_check (by decide +kernel)
theorem iron : Small (2 ^ 53) "Fe".toList := small_of_check (by decide +kernel)
theorem ettringite : Small (2 ^ 53) "Ca6Al2(SO4)3(OH)12(H2O)26".toList := small_of_check (by decide +kernel)

/-- Haematite: the hypotheses of the theorems on one compound hold, its coefficients are 2 and 3, and 100 kg of it converted to iron are not an error. -/
example : Small (2 ^ 53) "Fe2O3".toList ∧ Stoich.coefficient "Fe2O3".toList "O".toList = .ok 3 ∧ kinds "Fe2O3".toList = 2 ∧ Given rnd64 (pow2 (-1022)) (2 ^ 53) (100 : ℕ) ∧
    elements [strip "Fe2O3".toList] = .ok ["Fe".toList, "O".toList] ∧ Stoich.molarMass "Fe2O3".toList = .ok (159688200 / 1000000) ∧
    Stoich.convertCompound 100 "Fe2O3".toList "Fe".toList "Fe".toList = .ok (11169000 / 159688200 * 1000) :=
  ⟨haematite, by decide +kernel, by decide +kernel, given_whole (by norm_num) (by norm_num), by decide +kernel, by decide +kernel, by decide +kernel⟩

/-- On the machine the conversion is right to one in 10^14. -/
example : ∃ y, convertCompound rnd64 (100 : ℕ) "Fe2O3".toList "Fe".toList "Fe".toList = .ok y ∧ |y - 11169000 / 159688200 * 1000| ≤ 11169000 / 159688200 * 1000 / 10 ^ 14 :=
  C137_doubles_convert _ _ _ _ (given_whole (by norm_num) (by norm_num)) haematite iron _ (by decide +kernel) (by decide +kernel)

/-- Two compounds for the theorems on fractions. -/
example : GivenAll rnd64 (pow2 (-1022)) (2 ^ 53) [("Fe2O3".toList, (70 : ℕ)), ("Ca6Al2(SO4)3(OH)12(H2O)26".toList, (30 : ℕ))] ∧
    (∀ e ∈ [("Fe2O3".toList, ((70 : ℕ) : ℚ)), ("Ca6Al2(SO4)3(OH)12(H2O)26".toList, ((30 : ℕ) : ℚ))], Small (2 ^ 53) e.1 ∧ kinds e.1 ≤ 5) ∧ ((2 : ℕ) : ℚ) * pow2 (-52) ≤ 1 / 2 := by
  have r : pow2 (-1022) * (2 ^ 19 * 2 ^ 53) ≤ 1 / 100 := by
    have h : (2 : ℚ) ^ 19 * 2 ^ 53 = pow2 72 := by rw [pow2_eq]; norm_num
    rw [h, ← pow2_add]
    refine (pow2_le (show (-1022 + 72 : ℤ) ≤ -10 by norm_num)).trans ?_
    rw [pow2_eq]; norm_num
  refine ⟨?_, ?_, by rw [pow2_eq]; norm_num⟩
  · intro e he
    simp only [List.map_cons, List.map_nil, List.sum_cons, List.sum_nil]
    rcases List.mem_cons.1 he with rfl | he
    · exact ⟨given_whole (by norm_num) (by norm_num), .inr (by push_cast; linarith)⟩
    · rcases List.mem_cons.1 he with rfl | he
      · exact ⟨given_whole (by norm_num) (by norm_num), .inr (by push_cast; linarith)⟩
      · cases he
  · intro e he
    rcases List.mem_cons.1 he with rfl | he
    · exact ⟨haematite, by decide +kernel⟩
    · rcases List.mem_cons.1 he with rfl | he
      · exact ⟨ettringite, by decide +kernel⟩
      · cases he

/-- Beyond the whole numbers up to which floats are exact a coefficient may be wrong: the hypothesis on coefficients cannot be dropped. -/
theorem C137_large_coefficient : ∃ s e, coefficient rnd64 s e ≠ Stoich.coefficient s e := ⟨"H9007199254740993".toList, "H".toList, by decide +kernel⟩

end Auxi.StoichFloat.Props
