import Verif.Props.Transport

/-! # C155: when the pipe flow correlations answer, and how they refuse -/
namespace Auxi.Transport.Props
open Auxi.Transport

theorem div_fate (a b : ℝ) : (div a b = .error .zeroDivisionError ↔ b = 0) ∧ ((∃ x, div a b = .ok x) ↔ b ≠ 0) := by
  unfold div
  by_cases h : b = 0 <;> simp [h]

/-- **C155.** The quotients (Grashof, Prandtl, Reynolds, Nusselt and Sherwood number, laminar friction factor, hydraulic diameter, pressure drop) answer unless their denominator is zero, which a `ZeroDivisionError` says. -/
theorem C155_quotients (L v Ts Tf beta nu g alpha h k D re a p f rho : ℝ) :
    ((Gr L Ts Tf beta nu g = .error .zeroDivisionError ↔ nu = 0) ∧ ((∃ x, Gr L Ts Tf beta nu g = .ok x) ↔ nu ≠ 0)) ∧
    ((Pr nu alpha = .error .zeroDivisionError ↔ alpha = 0) ∧ ((∃ x, Pr nu alpha = .ok x) ↔ alpha ≠ 0)) ∧
    ((Re L v nu = .error .zeroDivisionError ↔ nu = 0) ∧ ((∃ x, Re L v nu = .ok x) ↔ nu ≠ 0)) ∧
    ((Nu L h k = .error .zeroDivisionError ↔ k = 0) ∧ ((∃ x, Nu L h k = .ok x) ↔ k ≠ 0)) ∧
    ((Sh L h D = .error .zeroDivisionError ↔ D = 0) ∧ ((∃ x, Sh L h D = .ok x) ↔ D ≠ 0)) ∧
    ((frictionLaminar re = .error .zeroDivisionError ↔ re = 0) ∧ ((∃ x, frictionLaminar re = .ok x) ↔ re ≠ 0)) ∧
    ((hydraulicDiameter a p = .error .zeroDivisionError ↔ p = 0) ∧ ((∃ x, hydraulicDiameter a p = .ok x) ↔ p ≠ 0)) ∧
    ((pressureDrop f L D rho v = .error .zeroDivisionError ↔ D = 0) ∧ ((∃ x, pressureDrop f L D rho v = .ok x) ↔ D ≠ 0)) := by
  refine ⟨?_, div_fate _ _, div_fate _ _, div_fate _ _, div_fate _ _, div_fate _ _, div_fate _ _, ?_⟩
  · have := div_fate (g * beta * (Ts - Tf) * L ^ 3) (nu ^ 2)
    simpa [Gr, pow_eq_zero_iff] using this
  · unfold pressureDrop div
    by_cases h : D = 0 <;> simp [h]

theorem log10_le {x : ℝ} (h : x ≤ 0) : log10 x = .error .valueError := if_pos h

/-- **C155.** The friction factor of a smooth pipe is refused with a `ValueError` for a Reynolds number that is not positive, with a `ZeroDivisionError` for the one (about 8) at which the correlation has its pole, and for no other; an answer is positive. -/
theorem C155_smooth (re : ℝ) :
    (frictionSmooth re = .error .valueError ↔ re ≤ 0) ∧ (frictionSmooth re = .error .zeroDivisionError ↔ re = (10 : ℝ) ^ (82 / 91 : ℝ)) ∧
    ((∃ f, frictionSmooth re = .ok f) ↔ 0 < re ∧ re ≠ (10 : ℝ) ^ (82 / 91 : ℝ)) ∧ ∀ f, frictionSmooth re = .ok f → 0 < f := by
  have hp : (0 : ℝ) < (10 : ℝ) ^ (82 / 91 : ℝ) := by positivity
  by_cases h : re ≤ 0
  · have hne : re ≠ (10 : ℝ) ^ (82 / 91 : ℝ) := by intro e; linarith
    have hr : frictionSmooth re = .error .valueError := by unfold frictionSmooth; rw [log10_le h]
    rw [hr]
    simp [h, hne, not_lt.2 h]
  · have h0 : 0 < re := not_le.1 h
    have he : frictionSmooth re = div 1 ((1.82 * Real.logb 10 re - 1.64) ^ 2) := by unfold frictionSmooth; rw [log10_ok h0]
    have hz : (1.82 * Real.logb 10 re - 1.64) ^ 2 = 0 ↔ re = (10 : ℝ) ^ (82 / 91 : ℝ) := by
      rw [pow_eq_zero_iff two_ne_zero]
      constructor
      · intro e
        have : Real.logb 10 re = 82 / 91 := by norm_num at e; linarith
        rw [← this, Real.rpow_logb (by norm_num) (by norm_num) h0]
      · intro e
        rw [e, Real.logb_rpow (by norm_num) (by norm_num)]
        norm_num
    rw [he]
    by_cases hz' : re = (10 : ℝ) ^ (82 / 91 : ℝ)
    · unfold div; rw [if_pos (hz.2 hz')]
      simp [h, hz']
      exact hp
    · have hn := mt hz.1 hz'
      unfold div; rw [if_neg hn]
      refine ⟨by simp [h], by simp [hz'], by simp [h0, hz'], ?_⟩
      intro f hf
      cases hf
      have : 0 < (1.82 * Real.logb 10 re - 1.64) ^ 2 := lt_of_le_of_ne (sq_nonneg _) (Ne.symm hn)
      positivity

/-- **C155.** The Haaland friction factor is refused with a `ZeroDivisionError` if the diameter or the Reynolds number is zero or the correlation has its pole, with a `TypeError` for a negative relative roughness, with a `ValueError` if the argument of the logarithm is not positive, and in no other case; an answer is positive. -/
theorem C155_haaland (re eps d : ℝ) :
    (frictionHaaland re eps d = .error .zeroDivisionError ↔ d = 0 ∨ re = 0 ∨ (0 ≤ eps / d ∧ haalandArg re (eps / d) = 1)) ∧
    (frictionHaaland re eps d = .error .typeError ↔ d ≠ 0 ∧ re ≠ 0 ∧ eps / d < 0) ∧
    (frictionHaaland re eps d = .error .valueError ↔ d ≠ 0 ∧ re ≠ 0 ∧ 0 ≤ eps / d ∧ haalandArg re (eps / d) ≤ 0) ∧
    ((∃ f, frictionHaaland re eps d = .ok f) ↔ d ≠ 0 ∧ re ≠ 0 ∧ 0 ≤ eps / d ∧ 0 < haalandArg re (eps / d) ∧ haalandArg re (eps / d) ≠ 1) ∧
    ∀ f, frictionHaaland re eps d = .ok f → 0 < f := by
  by_cases hd : d = 0
  · have : frictionHaaland re eps d = .error .zeroDivisionError := by unfold frictionHaaland div; rw [if_pos hd]
    rw [this]; simp [hd]
  by_cases hr : re = 0
  · have : frictionHaaland re eps d = .error .zeroDivisionError := by unfold frictionHaaland div; rw [if_neg hd, if_pos hr]
    rw [this]; simp [hr]
  by_cases he : eps / d < 0
  · have : frictionHaaland re eps d = .error .typeError := by
      unfold frictionHaaland div; rw [if_neg hd, if_neg hr]; dsimp only; rw [if_pos he]
    rw [this]; simp [hd, hr, he, not_le.2 he]
  have he' := not_lt.1 he
  have hx : frictionHaaland re eps d = (match log10 (haalandArg re (eps / d)) with | .error e => .error e | .ok l => div 1 ((1.8 * l) ^ 2)) := by
    unfold frictionHaaland; unfold div; rw [if_neg hd, if_neg hr]; dsimp only; rw [if_neg he]; rfl
  by_cases ha : haalandArg re (eps / d) ≤ 0
  · rw [hx, log10_le ha]
    have h1 : haalandArg re (eps / d) ≠ 1 := by intro e; rw [e] at ha; norm_num at ha
    simp [hd, hr, he, he', ha, h1, not_lt.2 ha]
  have ha' := not_le.1 ha
  have hlog : Real.logb 10 (haalandArg re (eps / d)) = 0 ↔ haalandArg re (eps / d) = 1 := by
    constructor
    · intro h
      have := Real.rpow_logb (b := 10) (by norm_num) (by norm_num) ha'
      rw [h, Real.rpow_zero] at this
      exact this.symm
    · intro h; rw [h, Real.logb_one]
  rw [hx, log10_ok ha']
  by_cases h1 : haalandArg re (eps / d) = 1
  · unfold div
    simp [hd, hr, he, he', h1]
  · have hn : (1.8 * Real.logb 10 (haalandArg re (eps / d))) ^ 2 ≠ 0 := by
      rw [pow_ne_zero_iff two_ne_zero]
      exact mul_ne_zero (by norm_num) (mt hlog.1 h1)
    unfold div
    dsimp only
    rw [if_neg hn]
    refine ⟨by simp [hd, hr, h1], by simp [he], by simp [ha], by simp [hd, hr, he', ha', h1], ?_⟩
    intro f hf
    cases hf
    have : 0 < (1.8 * Real.logb 10 (haalandArg re (eps / d))) ^ 2 := lt_of_le_of_ne (sq_nonneg _) (Ne.symm hn)
    positivity

theorem div_units {c : ℝ} (hc : c ≠ 0) (a b : ℝ) : div (c * a) (c * b) = div a b := by
  unfold div
  simp only [mul_eq_zero, hc, false_or, mul_div_mul_left _ _ hc]

/-- **C155.** Roughness and diameter may be in any unit of length, as long as it is the same. -/
theorem C155_units {c : ℝ} (hc : c ≠ 0) (root : (ℝ → Res ℝ) → ℝ → Res ℝ) (re eps d : ℝ) :
    frictionHaaland re (c * eps) (c * d) = frictionHaaland re eps d ∧ frictionColebrook root re (c * eps) (c * d) = frictionColebrook root re eps d := by
  constructor
  · unfold frictionHaaland; rw [div_units hc]
  · unfold frictionColebrook
    congr 1
    funext f
    unfold colebrook; rw [div_units hc]

example : frictionHaaland 5000 (1000 * 0.0001) (1000 * 0.1) = frictionHaaland 5000 0.0001 0.1 := (C155_units (by norm_num) (fun f x => f x) 5000 0.0001 0.1).1

theorem haalandArg_pos {re r : ℝ} (hre : 0 < re) (hr : 0 ≤ r) : 0 < haalandArg re r := by
  unfold haalandArg
  have : 0 ≤ (r / 3.7) ^ (1.11 : ℝ) := Real.rpow_nonneg (by positivity) _
  have : 0 < 6.9 / re := by positivity
  linarith

/-- **C155.** In turbulent flow, in a smooth or rough pipe of any diameter, both answer. -/
theorem C155_turbulent {re eps d : ℝ} (hre : 4000 ≤ re) (hd : 0 < d) (he : 0 ≤ eps) (hr : eps ≤ 0.05 * d) :
    (∃ f, frictionSmooth re = .ok f ∧ 0 < f) ∧ ∃ f, frictionHaaland re eps d = .ok f ∧ 0 < f := by
  have h0 : 0 < re := by linarith
  have hq : 0 ≤ eps / d := by positivity
  constructor
  · obtain ⟨-, -, h3, h4⟩ := C155_smooth re
    have hne : re ≠ (10 : ℝ) ^ (82 / 91 : ℝ) := by
      intro e
      have : (10 : ℝ) ^ (82 / 91 : ℝ) ≤ (10 : ℝ) ^ (1 : ℝ) := Real.rpow_le_rpow_of_exponent_le (by norm_num) (by norm_num)
      rw [← e, Real.rpow_one] at this
      linarith
    obtain ⟨f, hf⟩ := h3.2 ⟨h0, hne⟩
    exact ⟨f, hf, h4 f hf⟩
  · obtain ⟨-, -, -, h4, h5⟩ := C155_haaland re eps d
    have hlt := C103_haaland_range hre hq (by rw [div_le_iff₀ hd]; exact hr)
    obtain ⟨f, hf⟩ := h4.2 ⟨hd.ne', h0.ne', hq, haalandArg_pos h0 hq, hlt.ne⟩
    exact ⟨f, hf, h5 f hf⟩

example : (∃ f, frictionSmooth 100000 = .ok f ∧ 0 < f) ∧ ∃ f, frictionHaaland 100000 0.0001 0.1 = .ok f ∧ 0 < f :=
  C155_turbulent (by norm_num) (by norm_num) (by norm_num) (by norm_num)

example : frictionSmooth (-5) = .error .valueError := (C155_smooth (-5)).1.2 (by norm_num)
example : frictionHaaland 5000 (-0.001) 1 = .error .typeError := (C155_haaland 5000 (-0.001) 1).2.1.2 (by norm_num)
example : frictionHaaland (-5000) 0 1 = .error .valueError := by
  refine (C155_haaland (-5000) 0 1).2.2.1.2 ⟨by norm_num, by norm_num, by norm_num, ?_⟩
  unfold haalandArg
  rw [zero_div, zero_div, Real.zero_rpow (by norm_num)]
  norm_num

/-- **C155 (violated).** Flow with a negative Reynolds number is not always refused: laminar flow gets a negative friction factor, and in a rough pipe the Haaland correlation answers as if nothing were wrong. -/
theorem C155_negative_violated : (∀ re < 0, ∃ f < 0, frictionLaminar re = .ok f) ∧ ∃ f, frictionHaaland (-1000000) 0.05 1 = .ok f ∧ 0 < f := by
  constructor
  · intro re h
    refine ⟨64 / re, div_neg_of_pos_of_neg (by norm_num) h, ?_⟩
    unfold frictionLaminar div
    rw [if_neg h.ne]
  · obtain ⟨-, -, -, h4, h5⟩ := C155_haaland (-1000000) 0.05 1
    have hb : (0.05 / 1 / 3.7 : ℝ) ^ (2 : ℝ) ≤ (0.05 / 1 / 3.7 : ℝ) ^ (1.11 : ℝ) := Real.rpow_le_rpow_of_exponent_ge (by norm_num) (by norm_num) (by norm_num)
    have hc : (0.05 / 1 / 3.7 : ℝ) ^ (1.11 : ℝ) ≤ (0.05 / 1 / 3.7 : ℝ) ^ (1 : ℝ) := Real.rpow_le_rpow_of_exponent_ge (by norm_num) (by norm_num) (by norm_num)
    rw [Real.rpow_one] at hc
    have hb2 : (0.05 / 1 / 3.7 : ℝ) ^ (2 : ℝ) = (0.05 / 1 / 3.7) ^ 2 := by rw [← Real.rpow_natCast]; norm_num
    rw [hb2] at hb
    obtain ⟨f, hf⟩ := h4.2 ⟨by norm_num, by norm_num, by norm_num, by unfold haalandArg; norm_num at hb ⊢; linarith, by unfold haalandArg; apply ne_of_lt; norm_num at hc ⊢; linarith⟩
    exact ⟨f, hf, h5 f hf⟩

end Auxi.Transport.Props
