import Verif.Spec.ShippedFluids
import Verif.Proofs.PolyPos
import Verif.Props.PhysMix

/-! # The shipped fluids: certified checks of their polynomials -/
namespace Auxi.Phys
open Spec Props
open Auxi.PolyPos (eval posOn smul mul deriv add)

theorem eval_append (l : List ℚ) (c : ℚ) (x : ℝ) : eval (l ++ [c]) x = eval l x + x ^ l.length * c := by
  induction l with
  | nil => simp [eval]
  | cons a l ih => simp only [List.cons_append, eval, ih, List.length_cons]; ring

theorem polynomialAt_eval (cs : List ℚ) (x : ℝ) : polynomialAt (cs.map (fun q : ℚ => (q : ℝ))) x = eval cs.reverse x := by
  induction cs with
  | nil => rfl
  | cons c cs ih => rw [List.map_cons, polynomialAt, List.reverse_cons, eval_append, ih]; simp; ring

/-- The coefficients of a fitted model, the constant first. -/
def DataPoly.low (d : DataPoly) : List ℚ := d.coeffs.reverse

theorem DataPoly.value (d : DataPoly) {T : ℝ} (h0 : (d.tmin : ℝ) ≤ T) (h1 : T ≤ d.tmax) : d.poly.calculate (temp T) = .ok (eval d.low T) := by
  rcases C81_polynomial d.poly (st := temp T) (by unfold Keywords temp; simp) with h | h
  · rw [h.2 T (by simp [temp, List.lookup])]
    exact congrArg _ (polynomialAt_eval _ _)
  · refine absurd ⟨?_, T, by simp [temp, List.lookup], h0, fun m hm => ?_⟩ h.1
    · unfold Gives temp; simp
    · cases hm; exact h1

theorem DataPoly.refused (d : DataPoly) {T : ℝ} (h : T < (d.tmin : ℝ) ∨ (d.tmax : ℝ) < T) : d.poly.calculate (temp T) = .error .exception := by
  rcases C81_polynomial d.poly (st := temp T) (by unfold Keywords temp; simp) with h' | h'
  · obtain ⟨-, T', e, h0, h1⟩ := h'.1
    have : T' = T := by simpa [temp, List.lookup] using e.symm
    subst this
    have h1 := h1 _ rfl
    have h0 : (d.tmin : ℝ) ≤ T' := h0
    rcases h with h | h <;> linarith
  · exact h'.2

theorem validates_T {T : ℝ} (h : 0 < T) : validates schemaT (temp T) :=
  (validT (by unfold Keywords temp; simp)).2 ⟨by unfold Gives temp; simp, T, by simp [temp, List.lookup], h.le, by simp⟩

theorem rhoT_value (M P : ℝ) {T : ℝ} (h : 0 < T) : rhoT M P (temp T) = .ok (M / 1000 * P / R / T) := by
  unfold rhoT validate
  rw [if_pos (validates_T h)]
  simp [getNum, temp, List.lookup, pydiv, h.ne']

theorem betaT_value {T : ℝ} (h : 0 < T) : betaT (temp T) = .ok (1 / T) := by
  unfold betaT validate
  rw [if_pos (validates_T h)]
  simp [getNum, temp, List.lookup, pydiv, h.ne']

/-! ## Gases -/

/-- `q` is positive over the range of `d`. -/
def DataPoly.check (d : DataPoly) (q : List ℚ) : Bool := posOn 14 d.tmin d.tmax q

/-- `101325 M / (1000 R)`: the ideal gas density times temperature. -/
def igFactor (f : Str) : ℚ := gasMass f / 1000 * 101325 / 8.314462618

/-- The check of one gas. -/
def gasCheck (e : Str × DataGas) : Bool :=
  let d := e.2
  decide ((e.1, d.Cp.tmin, d.Cp.tmax) ∈ gasRanges ∧ d.mu.tmin = d.Cp.tmin ∧ d.mu.tmax = d.Cp.tmax ∧ d.k.tmin = d.Cp.tmin ∧ d.k.tmax = d.Cp.tmax ∧ 0 < d.Cp.tmin ∧
    d.Cp.tmin < d.Cp.tmax ∧ 0 < gasMass e.1) &&
  d.Cp.check d.Cp.low && d.Cp.check d.mu.low && d.Cp.check d.k.low && d.Cp.check (deriv d.mu.low) && d.Cp.check (deriv d.k.low) &&
  d.Cp.check (add (mul d.Cp.low d.mu.low) (smul (-0.66) d.k.low)) && d.Cp.check (add (smul 1.03 d.k.low) (smul (-1) (mul d.Cp.low d.mu.low))) &&
  match d.rho with
  | none => true
  | some r => decide (r.tmin = d.Cp.tmin ∧ r.tmax = d.Cp.tmax) && d.Cp.check r.low && d.Cp.check (deriv (smul (-1) r.low)) &&
      d.Cp.check (add (0 :: r.low) [-(0.99 * igFactor e.1)]) && d.Cp.check (add (smul (-1) (0 :: r.low)) [1.03 * igFactor e.1])

theorem gases_checked : gasData.all gasCheck = true := by decide +kernel
theorem ranges_keys : (gasRanges.map (·.1)).Nodup := by decide +kernel
theorem gasData_keys : (gasData.map (·.1)).Nodup := by decide +kernel

/-- What the check says of a gas, at a temperature that its data cover. -/
structure GasAt (f : Str) (d : DataGas) (T : ℝ) : Prop where
  T0 : 0 < T
  mass : 0 < gasMass f
  cp : d.Cp.poly.calculate (temp T) = .ok (eval d.Cp.low T)
  mu : d.mu.poly.calculate (temp T) = .ok (eval d.mu.low T)
  k : d.k.poly.calculate (temp T) = .ok (eval d.k.low T)
  cp0 : 0 < eval d.Cp.low T
  mu0 : 0 < eval d.mu.low T
  k0 : 0 < eval d.k.low T
  pr1 : 0.66 * eval d.k.low T < eval d.Cp.low T * eval d.mu.low T
  pr2 : eval d.Cp.low T * eval d.mu.low T < 1.03 * eval d.k.low T
  rho : ∃ r, Is (gasMat f d).rho T r ∧ 0 < r ∧ 0.99 * (gasMass f / 1000 * 101325 / R / T) < r ∧ r < 1.03 * (gasMass f / 1000 * 101325 / R / T)

theorem gas_range {f : Str} {d : DataGas} (h : (f, d) ∈ gasData) {lo hi : ℚ} (hr : (f, lo, hi) ∈ gasRanges) : d.Cp.tmin = lo ∧ d.Cp.tmax = hi := by
  have k := List.all_eq_true.1 gases_checked _ h
  simp only [gasCheck, Bool.and_eq_true, decide_eq_true_eq] at k
  have h1 := k.1.1.1.1.1.1.1.1.1
  have := List.inj_on_of_nodup_map ranges_keys h1 hr rfl
  simp only [Prod.mk.injEq, true_and] at this
  exact this

theorem gas_at {f : Str} {d : DataGas} (h : (f, d) ∈ gasData) {T : ℝ} (hc : Covered f T) : GasAt f d T := by
  obtain ⟨lo, hi, hr, h0, h1⟩ := hc
  obtain ⟨rfl, rfl⟩ := gas_range h hr
  have k := List.all_eq_true.1 gases_checked _ h
  simp only [gasCheck, Bool.and_eq_true, decide_eq_true_eq] at k
  obtain ⟨⟨⟨⟨⟨⟨⟨⟨⟨-, m1, m2, k1, k2, p0, p1, ms⟩, c1⟩, c2⟩, c3⟩, c4⟩, c5⟩, c6⟩, c7⟩, cr⟩ := k
  have t0 : (0 : ℝ) < (d.Cp.tmin : ℝ) := by exact_mod_cast p0
  have T0 : 0 < T := t0.trans_le h0
  have pos : ∀ {q : List ℚ}, d.Cp.check q = true → 0 < eval q T := fun hq => PolyPos.posOn_sound hq p1 h0 h1
  have e1 := pos c6
  have e2 := pos c7
  simp only [PolyPos.eval_add, PolyPos.eval_mul, PolyPos.eval_smul] at e1 e2
  push_cast at e1 e2
  have ms' : (0 : ℝ) < (gasMass f : ℝ) := by exact_mod_cast ms
  have R0 : (0 : ℝ) < R := by unfold R; norm_num
  refine ⟨T0, ms, d.Cp.value h0 h1, d.mu.value (by rw [m1]; exact h0) (by rw [m2]; exact h1), d.k.value (by rw [k1]; exact h0) (by rw [k2]; exact h1), pos c1, pos c2,
    pos c3, by linarith, by linarith, ?_⟩
  cases hd : d.rho with
  | none =>
    refine ⟨gasMass f / 1000 * 101325 / R / T, ?_, by positivity, ?_, ?_⟩
    · unfold Is gasMat prop
      simp only [hd]
      exact rhoT_value _ _ T0
    · have : 0 < (gasMass f : ℝ) / 1000 * 101325 / R / T := by positivity
      linarith
    · have : 0 < (gasMass f : ℝ) / 1000 * 101325 / R / T := by positivity
      linarith
  | some r =>
    rw [hd] at cr
    simp only [Bool.and_eq_true, decide_eq_true_eq] at cr
    obtain ⟨⟨⟨⟨⟨r1, r2⟩, g1⟩, g2⟩, g3⟩, g4⟩ := cr
    have e3 := pos g3
    have e4 := pos g4
    have eR : R = ((8.314462618 : ℚ) : ℝ) := by unfold R; norm_num
    have ig : ((igFactor f : ℚ) : ℝ) = gasMass f / 1000 * 101325 / R := by
      rw [eR]; unfold igFactor; push_cast; ring
    simp only [PolyPos.eval_add, PolyPos.eval_smul, eval] at e3 e4
    push_cast at e3 e4
    rw [ig] at e3 e4
    refine ⟨eval r.low T, ?_, pos g1, ?_, ?_⟩
    · unfold Is gasMat prop
      simp only [hd]
      exact r.value (by rw [r1]; exact h0) (by rw [r2]; exact h1)
    · rw [← mul_div_assoc, div_lt_iff₀ T0]; linarith
    · rw [← mul_div_assoc, lt_div_iff₀ T0]; linarith

/-- How a gas changes between two temperatures that its data cover. -/
theorem gas_rise {f : Str} {d : DataGas} (h : (f, d) ∈ gasData) {T₁ T₂ : ℝ} (hc : Covered f T₁) (hc' : Covered f T₂) (hT : T₁ < T₂) :
    eval d.mu.low T₁ < eval d.mu.low T₂ ∧ eval d.k.low T₁ < eval d.k.low T₂ ∧
    ∀ r₁ r₂, Is (gasMat f d).rho T₁ r₁ → Is (gasMat f d).rho T₂ r₂ → r₂ < r₁ := by
  have T0 := (gas_at h hc).T0
  obtain ⟨lo, hi, hr, h0, -⟩ := hc
  obtain ⟨lo', hi', hr', -, h1⟩ := hc'
  obtain ⟨rfl, rfl⟩ := gas_range h hr
  obtain ⟨rfl, rfl⟩ := gas_range h hr'
  have k := List.all_eq_true.1 gases_checked _ h
  simp only [gasCheck, Bool.and_eq_true, decide_eq_true_eq] at k
  obtain ⟨⟨⟨⟨⟨⟨⟨⟨⟨-, m1, m2, k1, k2, p0, p1, ms⟩, c1⟩, c2⟩, c3⟩, c4⟩, c5⟩, c6⟩, c7⟩, cr⟩ := k
  refine ⟨PolyPos.increases c4 p1 h0 hT h1, PolyPos.increases c5 p1 h0 hT h1, fun r₁ r₂ e1 e2 => ?_⟩
  have ms' : (0 : ℝ) < (gasMass f : ℝ) := by exact_mod_cast ms
  have R0 : (0 : ℝ) < R := by unfold R; norm_num
  unfold Is gasMat prop at e1 e2
  cases hd : d.rho with
  | none =>
    simp only [hd] at e1 e2
    rw [rhoT_value _ _ T0] at e1
    rw [rhoT_value _ _ (T0.trans hT)] at e2
    cases e1; cases e2
    exact div_lt_div_of_pos_left (by positivity) T0 hT
  | some r =>
    rw [hd] at cr
    simp only [Bool.and_eq_true, decide_eq_true_eq] at cr
    obtain ⟨⟨⟨⟨⟨r1, r2⟩, g1⟩, g2⟩, g3⟩, g4⟩ := cr
    simp only [hd] at e1 e2
    rw [r.value (by rw [r1]; exact h0) (by rw [r2]; linarith)] at e1
    rw [r.value (by rw [r1]; linarith) (by rw [r2]; exact h1)] at e2
    cases e1; cases e2
    have := PolyPos.increases g2 p1 h0 hT h1
    simp only [PolyPos.eval_smul] at this
    push_cast at this
    linarith

/-! ## Water -/

/-- The check of water. -/
def waterCheck : Bool :=
  let d := dataWater
  decide ((d.Cp.tmin, d.Cp.tmax) = (273.16, 620) ∧ (d.beta.tmin, d.beta.tmax) = (273.16, 620) ∧ (d.k.tmin, d.k.tmax) = (273.16, 620) ∧ (d.mu.tmin, d.mu.tmax) = (273.16, 620) ∧
    (d.nu.tmin, d.nu.tmax) = (273.16, 620) ∧ (d.rho.tmin, d.rho.tmax) = (273.16, 620)) &&
  posOn 14 273.16 620 d.Cp.low && posOn 14 273.16 620 d.k.low && posOn 14 273.16 620 d.mu.low && posOn 14 273.16 620 d.nu.low && posOn 14 273.16 620 d.rho.low &&
  posOn 14 273.16 620 (deriv (smul (-1) d.mu.low)) && posOn 14 273.16 620 (deriv d.beta.low) && posOn 14 273.16 277 (smul (-1) d.beta.low) && posOn 14 277.1 620 d.beta.low &&
  posOn 14 276 620 (deriv (smul (-1) d.rho.low)) && posOn 14 273.16 595 (deriv (smul (-1) d.nu.low)) &&
  posOn 14 273.16 620 (add (mul d.nu.low d.rho.low) (smul (-0.979) d.mu.low)) && posOn 14 273.16 620 (add (smul 1.021 d.mu.low) (smul (-1) (mul d.nu.low d.rho.low)))

theorem water_checked : waterCheck = true := by decide +kernel

end Auxi.Phys
