import Verif.Spec.Transport
import Mathlib.Tactic.Linarith
import Mathlib.Tactic.NormNum
import Mathlib.Tactic.FieldSimp
import Mathlib.Tactic.Positivity

/-!
# C91, C92: dimensionless quantities and pressure drop
-/
namespace Auxi.Transport.Props
open Auxi.Transport Auxi.Transport.Spec

theorem div_ok {a b : ℝ} (h : b ≠ 0) : div a b = .ok (a / b) := if_neg h
theorem div_zero (a : ℝ) : div a 0 = .error .zeroDivisionError := if_pos rfl

/-! ### C91 -/

/-- **C91 (definitions).** Reynolds = velocity × length / viscosity, Grashof = buoyancy / viscous, Prandtl = ratio of diffusivities, Nusselt and
Sherwood = transfer coefficient × length / conductivity or diffusivity; each raises `ZeroDivisionError` exactly when its denominator is zero. -/
theorem C91_defined (L v Ts Tf beta nu g alpha h k D : ℝ) :
    (nu ≠ 0 → Re L v nu = .ok (v * L / nu) ∧ Gr L Ts Tf beta nu g = .ok (g * beta * (Ts - Tf) * L ^ 3 / nu ^ 2)) ∧
    (alpha ≠ 0 → Pr nu alpha = .ok (nu / alpha)) ∧ (k ≠ 0 → Nu L h k = .ok (h * L / k)) ∧ (D ≠ 0 → Sh L h D = .ok (h * L / D)) ∧
    Re L v 0 = .error .zeroDivisionError ∧ Gr L Ts Tf beta 0 g = .error .zeroDivisionError ∧ Pr nu 0 = .error .zeroDivisionError ∧
    Nu L h 0 = .error .zeroDivisionError ∧ Sh L h 0 = .error .zeroDivisionError := by
  refine ⟨fun hn => ⟨div_ok hn, div_ok (pow_ne_zero 2 hn)⟩, fun ha => div_ok ha, fun hk => div_ok hk, fun hD => div_ok hD, div_zero _, ?_, div_zero _,
    div_zero _, div_zero _⟩
  unfold Gr; rw [zero_pow two_ne_zero]; exact div_zero _

/-- **C91 (units do not matter).** Measuring length in units `a` times smaller, time in units `b` times smaller and temperature in units `c` times
smaller changes none of the numbers. -/
theorem C91_units (a b c m : ℝ) (ha : a ≠ 0) (hb : b ≠ 0) (hc : c ≠ 0) (hm : m ≠ 0) (L v Ts Tf beta nu g alpha h k D : ℝ) :
    Re (a * L) (a / b * v) (a ^ 2 / b * nu) = Re L v nu ∧
    Gr (a * L) (c * Ts) (c * Tf) (beta / c) (a ^ 2 / b * nu) (a / b ^ 2 * g) = Gr L Ts Tf beta nu g ∧
    Pr (a ^ 2 / b * nu) (a ^ 2 / b * alpha) = Pr nu alpha ∧
    Nu (a * L) (m / (b ^ 3 * c) * h) (m * a / (b ^ 3 * c) * k) = Nu L h k ∧
    Sh (a * L) (a / b * h) (a ^ 2 / b * D) = Sh L h D := by
  have key : ∀ s x y : ℝ, s ≠ 0 → div (s * x) (s * y) = div x y := by
    intro s x y hs
    by_cases hy : y = 0
    · subst hy; rw [mul_zero, div_zero, div_zero]
    · rw [div_ok hy, div_ok (mul_ne_zero hs hy), mul_div_mul_left _ _ hs]
  refine ⟨?_, ?_, ?_, ?_, ?_⟩
  · unfold Re
    rw [show a / b * v * (a * L) = a ^ 2 / b * (v * L) by ring]
    exact key _ _ _ (by positivity)
  · unfold Gr
    rw [show a / b ^ 2 * g * (beta / c) * (c * Ts - c * Tf) * (a * L) ^ 3 = (a ^ 2 / b) ^ 2 * (g * beta * (Ts - Tf) * L ^ 3) by
      field_simp, mul_pow]
    exact key _ _ _ (by positivity)
  · exact key _ _ _ (by positivity)
  · unfold Nu
    rw [show m / (b ^ 3 * c) * h * (a * L) = m * a / (b ^ 3 * c) * (h * L) by ring]
    exact key _ _ _ (by positivity)
  · unfold Sh
    rw [show a / b * h * (a * L) = a ^ 2 / b * (h * L) by ring]
    exact key _ _ _ (by positivity)

/-- **C91 (signs and scaling).** The Grashof number is positive exactly for a surface hotter than the fluid, zero at equal temperatures, negative for
a colder one, and grows with the cube of the length; the Reynolds number is proportional to velocity and length. -/
theorem C91_grashof {L Ts Tf beta nu g : ℝ} (hL : 0 < L) (hb : 0 < beta) (hn : nu ≠ 0) (hg : 0 < g) :
    ∃ x, Gr L Ts Tf beta nu g = .ok x ∧ (0 < x ↔ Tf < Ts) ∧ (x < 0 ↔ Ts < Tf) ∧ (x = 0 ↔ Ts = Tf) ∧
      ∀ c, Gr (c * L) Ts Tf beta nu g = .ok (c ^ 3 * x) := by
  have hn2 : (0 : ℝ) < nu ^ 2 := by positivity
  have e : g * beta * (Ts - Tf) * L ^ 3 / nu ^ 2 = (Ts - Tf) * (g * beta * L ^ 3 / nu ^ 2) := by ring
  have hp : 0 < g * beta * L ^ 3 / nu ^ 2 := by positivity
  refine ⟨_, div_ok hn2.ne', ?_, ?_, ?_, ?_⟩
  · rw [e, mul_pos_iff_of_pos_right hp, sub_pos]
  · rw [e, mul_neg_iff]
    constructor
    · rintro (⟨_, h⟩ | ⟨h, _⟩)
      · exact absurd h (not_lt.2 hp.le)
      · exact sub_neg.1 h
    · exact fun h => Or.inr ⟨sub_neg.2 h, hp⟩
  · rw [e, mul_eq_zero, or_iff_left hp.ne', sub_eq_zero]
  · intro c
    unfold Gr
    rw [div_ok hn2.ne']
    congr 1; ring

/-- **C91 (mutual identities).** `Gr Pr` is the Rayleigh number `g β ΔT L³ / (ν α)`; `Re Pr` is the Péclet number `v L / α`. -/
theorem C91_products {L v Ts Tf beta nu g alpha : ℝ} (hn : nu ≠ 0) (ha : alpha ≠ 0) : ∃ gr pr re,
    Gr L Ts Tf beta nu g = .ok gr ∧ Pr nu alpha = .ok pr ∧ Re L v nu = .ok re ∧
    gr * pr = g * beta * (Ts - Tf) * L ^ 3 / (nu * alpha) ∧ re * pr = v * L / alpha := by
  refine ⟨_, _, _, div_ok (pow_ne_zero 2 hn), div_ok ha, div_ok hn, ?_, ?_⟩
  · field_simp
  · field_simp

/-- **C91 is false of the code for `Ra`**: it raises `NameError` whatever the arguments. -/
theorem C91_rayleigh_violated (L Ts Tf alpha beta nu : ℝ) : Ra L Ts Tf alpha beta nu = .error .nameError := rfl

example : Re 2 3 (1 / 2) = .ok 12 := by rw [Re, div_ok (by norm_num)]; norm_num
example : Gr 1 300 290 (1 / 100) 1 10 = .ok 1 := by rw [Gr, div_ok (by norm_num)]; norm_num

/-! ### C92 -/

/-- **C92 (Darcy-Weisbach).** The pressure drop is friction factor × length over diameter × dynamic pressure; it is additive along the duct, quadratic in
the velocity, proportional to density and friction factor, and not negative for non-negative arguments. -/
theorem C92_darcy {f L d rho v : ℝ} (hd : d ≠ 0) :
    pressureDrop f L d rho v = .ok (f * (L / d) * (rho * v ^ 2 / 2)) ∧
    pressureDrop f L 0 rho v = .error .zeroDivisionError ∧
    (∀ L', ∃ a b c, pressureDrop f L d rho v = .ok a ∧ pressureDrop f L' d rho v = .ok b ∧ pressureDrop f (L + L') d rho v = .ok c ∧ c = a + b) ∧
    (∀ c, ∃ a b, pressureDrop f L d rho v = .ok a ∧ pressureDrop f L d rho (c * v) = .ok b ∧ b = c ^ 2 * a) ∧
    (∀ c, ∃ a b, pressureDrop f L d rho v = .ok a ∧ pressureDrop f L d (c * rho) v = .ok b ∧ b = c * a) ∧
    (∀ c, ∃ a b, pressureDrop f L d rho v = .ok a ∧ pressureDrop (c * f) L d rho v = .ok b ∧ b = c * a) ∧
    (0 ≤ f → 0 ≤ L → 0 < d → 0 ≤ rho → ∃ a, pressureDrop f L d rho v = .ok a ∧ 0 ≤ a) := by
  have h : ∀ f L rho v, pressureDrop f L d rho v = .ok (f * (L / d) * (rho * v ^ 2 / 2)) := by
    intro f L rho v; unfold pressureDrop; rw [div_ok hd]
  refine ⟨h _ _ _ _, by unfold pressureDrop; rw [div_zero], fun L' => ⟨_, _, _, h _ _ _ _, h _ _ _ _, h _ _ _ _, by ring⟩,
    fun c => ⟨_, _, h _ _ _ _, h _ _ _ _, by ring⟩, fun c => ⟨_, _, h _ _ _ _, h _ _ _ _, by ring⟩,
    fun c => ⟨_, _, h _ _ _ _, h _ _ _ _, by ring⟩, fun hf hL hd' hr => ⟨_, h _ _ _ _, by positivity⟩⟩

/-- **C92 (hydraulic diameter).** Of a circular duct it is the diameter, of a square duct the side, of a rectangular one `2ab/(a+b)`. -/
theorem C92_hydraulic_diameter {a b : ℝ} (ha : 0 < a) (hb : 0 < b) :
    hydraulicDiameter (Real.pi / 4 * a ^ 2) (Real.pi * a) = .ok a ∧ hydraulicDiameter (a * a) (4 * a) = .ok a ∧
    hydraulicDiameter (a * b) (2 * (a + b)) = .ok (2 * a * b / (a + b)) ∧ hydraulicDiameter a 0 = .error .zeroDivisionError := by
  have hpi := Real.pi_pos
  refine ⟨?_, ?_, ?_, div_zero _⟩ <;> unfold hydraulicDiameter
  · rw [div_ok (by positivity)]; congr 1; field_simp
  · rw [div_ok (by positivity)]; congr 1; field_simp
  · rw [div_ok (by positivity)]; congr 1; field_simp; ring

/-- **C92 (laminar flow).** With the laminar friction factor at the Reynolds number of the duct, the pressure drop is that of Hagen and Poiseuille:
`32 μ L v / D²`, linear in the velocity. -/
theorem C92_laminar {L d rho v nu : ℝ} (hd : d ≠ 0) (hv : v ≠ 0) (hn : nu ≠ 0) : ∃ re f p, Re d v nu = .ok re ∧ frictionLaminar re = .ok f ∧
    pressureDrop f L d rho v = .ok p ∧ p = 32 * (rho * nu) * L * v / d ^ 2 := by
  refine ⟨_, _, _, div_ok hn, div_ok (by positivity), (C92_darcy hd).1, ?_⟩
  field_simp; ring

/-! ### Friction factors (C103) -/

theorem log10_ok {x : ℝ} (h : 0 < x) : log10 x = .ok (Real.logb 10 x) := if_neg (not_le.2 h)

/-- **C103 (smooth ducts).** For Reynolds numbers above 10 the friction factor is positive and decreases as the Reynolds number grows. -/
theorem C103_smooth {r s : ℝ} (hr : 10 ≤ r) (hrs : r < s) : ∃ x y, frictionSmooth r = .ok x ∧ frictionSmooth s = .ok y ∧ 0 < y ∧ y < x := by
  have hr0 : 0 < r := by linarith
  have hl1 : 1 ≤ Real.logb 10 r := by
    rw [Real.le_logb_iff_rpow_le (by norm_num) hr0]; simpa using hr
  have hl2 : Real.logb 10 r < Real.logb 10 s := Real.logb_lt_logb (by norm_num) hr0 hrs
  have hx : 0 < 1.82 * Real.logb 10 r - 1.64 := by nlinarith
  have hxy : 1.82 * Real.logb 10 r - 1.64 < 1.82 * Real.logb 10 s - 1.64 := by nlinarith
  have hy : 0 < 1.82 * Real.logb 10 s - 1.64 := by linarith
  refine ⟨1 / (1.82 * Real.logb 10 r - 1.64) ^ 2, 1 / (1.82 * Real.logb 10 s - 1.64) ^ 2, ?_, ?_, ?_, ?_⟩
  · unfold frictionSmooth; rw [log10_ok hr0]; exact div_ok (by positivity)
  · unfold frictionSmooth; rw [log10_ok (by linarith)]; exact div_ok (by positivity)
  · positivity
  · exact one_div_lt_one_div_of_lt (by positivity) (pow_lt_pow_left₀ hxy hx.le two_ne_zero)

/-- **C103 (laminar flow).** -/
theorem C103_laminar {r s : ℝ} (hr : 0 < r) (hrs : r < s) : ∃ x y, frictionLaminar r = .ok x ∧ frictionLaminar s = .ok y ∧ 0 < y ∧ y < x := by
  have hs : 0 < s := hr.trans hrs
  refine ⟨64 / r, 64 / s, div_ok hr.ne', div_ok hs.ne', by positivity, ?_⟩
  exact div_lt_div_of_pos_left (by norm_num) hr hrs

/-- The argument of the logarithm in Haaland's equation. -/
noncomputable def haalandArg (re r : ℝ) : ℝ := 6.9 / re + (r / 3.7) ^ (1.11 : ℝ)

/-- **C103 (Haaland, value).** -/
theorem C103_haaland_defined {re eps d : ℝ} (hre : 0 < re) (hd : 0 < d) (he : 0 ≤ eps) (h1 : haalandArg re (eps / d) ≠ 1) :
    ∃ f, frictionHaaland re eps d = .ok f ∧ 0 < f ∧ f = 1 / (1.8 * Real.logb 10 (haalandArg re (eps / d))) ^ 2 := by
  have hr : 0 ≤ eps / d := by positivity
  have hp : 0 < haalandArg re (eps / d) := by unfold haalandArg; positivity
  have hl : Real.logb 10 (haalandArg re (eps / d)) ≠ 0 := by
    exact Real.logb_ne_zero_of_pos_of_ne_one (by norm_num) hp h1
  refine ⟨1 / (1.8 * Real.logb 10 (haalandArg re (eps / d))) ^ 2, ?_, ?_, rfl⟩
  · unfold frictionHaaland
    rw [div_ok hd.ne']; dsimp only
    rw [div_ok hre.ne']; dsimp only
    rw [if_neg (not_lt.2 hr)]
    change (match log10 (haalandArg re (eps / d)) with
      | Except.error e => Except.error e
      | Except.ok l => div 1 ((1.8 * l) ^ 2)) = _
    rw [log10_ok hp]
    exact div_ok (by positivity)
  · positivity

/-- **C103 (Haaland, order).** A rougher duct or a smaller Reynolds number has a larger friction factor (while the argument of the logarithm stays below 1,
as it does throughout the documented range, see `C103_haaland_range`). -/
theorem C103_haaland_order {re re' eps eps' d : ℝ} (hre : 0 < re') (hd : 0 < d) (he : 0 ≤ eps) (h1 : re' ≤ re) (h2 : eps ≤ eps')
    (h3 : re' < re ∨ eps < eps') (h4 : haalandArg re' (eps' / d) < 1) :
    ∃ f f', frictionHaaland re eps d = .ok f ∧ frictionHaaland re' eps' d = .ok f' ∧ f < f' := by
  have hre2 : 0 < re := by linarith
  have hlt : haalandArg re (eps / d) < haalandArg re' (eps' / d) := by
    have hr : 0 ≤ eps / d / 3.7 := by positivity
    have hr' : eps / d / 3.7 ≤ eps' / d / 3.7 := by gcongr
    unfold haalandArg
    rcases h3 with h | h
    · have a1 : 6.9 / re < 6.9 / re' := div_lt_div_of_pos_left (by norm_num) hre h
      have a2 := Real.rpow_le_rpow hr hr' (by norm_num : (0 : ℝ) ≤ 1.11)
      linarith
    · have a1 : 6.9 / re ≤ 6.9 / re' := div_le_div_of_nonneg_left (by norm_num) hre h1
      have hr'' : eps / d / 3.7 < eps' / d / 3.7 := by gcongr
      have a2 := Real.rpow_lt_rpow hr hr'' (by norm_num : (0 : ℝ) < 1.11)
      linarith
  have hp : 0 < haalandArg re (eps / d) := by unfold haalandArg; positivity
  obtain ⟨f, hf, _, ef⟩ := C103_haaland_defined hre2 hd he (by linarith)
  obtain ⟨f', hf', _, ef'⟩ := C103_haaland_defined hre hd (he.trans h2) (by linarith)
  refine ⟨f, f', hf, hf', ?_⟩
  have l1 : Real.logb 10 (haalandArg re (eps / d)) < Real.logb 10 (haalandArg re' (eps' / d)) := Real.logb_lt_logb (by norm_num) hp hlt
  have l2 : Real.logb 10 (haalandArg re' (eps' / d)) < 0 := Real.logb_neg (by norm_num) (hp.trans hlt) h4
  rw [ef, ef']
  apply one_div_lt_one_div_of_lt
  · have : (1.8 * Real.logb 10 (haalandArg re' (eps' / d))) ≠ 0 := by
      have := l2.ne; positivity
    positivity
  · nlinarith

/-- In the documented range (relative roughness up to 0.05, Reynolds number from 4000) the argument is below 1. -/
theorem C103_haaland_range {re r : ℝ} (hre : 4000 ≤ re) (h0 : 0 ≤ r) (hr : r ≤ 0.05) : haalandArg re r < 1 := by
  unfold haalandArg
  have a1 : 6.9 / re ≤ 6.9 / 4000 := div_le_div_of_nonneg_left (by norm_num) (by norm_num) hre
  have a2 : (r / 3.7) ^ (1.11 : ℝ) ≤ (r / 3.7) ^ (1 : ℝ) := by
    by_cases h : r = 0
    · subst h
      rw [zero_div, Real.zero_rpow (by norm_num), Real.zero_rpow (by norm_num)]
    · exact Real.rpow_le_rpow_of_exponent_ge (by positivity) (by rw [div_le_one (by norm_num)]; linarith) (by norm_num)
  rw [Real.rpow_one] at a2
  have a3 : r / 3.7 ≤ 0.05 / 3.7 := by gcongr
  have : (6.9 : ℝ) / 4000 + 0.05 / 3.7 < 1 := by norm_num
  linarith

example : ∃ f f', frictionHaaland 10000 0 1 = .ok f ∧ frictionHaaland 5000 0.01 1 = .ok f' ∧ f < f' :=
  C103_haaland_order (by norm_num) (by norm_num) le_rfl (by norm_num) (by norm_num) (Or.inl (by norm_num))
    (C103_haaland_range (by norm_num) (by norm_num) (by norm_num))

/-! ### Colebrook -/

theorem colebrook_eq {re eps d f : ℝ} (hre : 0 < re) (hd : 0 < d) (he : 0 ≤ eps) (hf : 0 < f) : colebrook re eps d f =
    .ok (-2 * Real.logb 10 (eps / d / 3.7 + 2.51 / (re * Real.sqrt f)) - 1 / Real.sqrt f) := by
  have hs : 0 < Real.sqrt f := Real.sqrt_pos.2 hf
  have hp : 0 < eps / d / 3.7 + 2.51 / re / Real.sqrt f := by positivity
  unfold colebrook
  rw [div_ok hd.ne']; dsimp only
  rw [div_ok hre.ne']; dsimp only
  rw [if_neg (not_lt.2 hf.le), div_ok hs.ne']; dsimp only
  rw [log10_ok hp]; dsimp only
  rw [div_ok hs.ne', div_div (2.51 : ℝ) re]

/-- The function solved is zero exactly at the friction factors of Colebrook and White. -/
theorem C92_colebrook_root {re eps d f : ℝ} (hre : 0 < re) (hd : 0 < d) (he : 0 ≤ eps) :
    colebrook re eps d f = .ok 0 ↔ ColebrookWhite re (eps / d) f := by
  constructor
  · intro h
    have hf : 0 < f := by
      by_contra hf
      rcases (not_lt.1 hf).lt_or_eq with h' | h'
      · unfold colebrook at h
        rw [div_ok hd.ne'] at h; dsimp only at h
        rw [div_ok hre.ne'] at h; dsimp only at h
        rw [if_pos h'] at h; simp at h
      · subst h'
        unfold colebrook at h
        rw [div_ok hd.ne'] at h; dsimp only at h
        rw [div_ok hre.ne'] at h; dsimp only at h
        rw [if_neg (lt_irrefl _), Real.sqrt_zero, div_zero] at h; simp at h
    rw [colebrook_eq hre hd he hf, Except.ok.injEq] at h
    exact ⟨hf, by linarith⟩
  · rintro ⟨hf, h⟩
    rw [colebrook_eq hre hd he hf, Except.ok.injEq]
    linarith

/-- **C92 (Colebrook).** If the solver returns a root of the function it is given, the friction factor satisfies the Colebrook equation, and it is the
only one that does. -/
theorem C92_colebrook {root : (ℝ → Res ℝ) → ℝ → Res ℝ} {re eps d x : ℝ} (hre : 0 < re) (hd : 0 < d) (he : 0 ≤ eps)
    (hroot : ∀ g x0 y, root g x0 = .ok y → g y = .ok 0) (h : frictionColebrook root re eps d = .ok x) :
    ColebrookWhite re (eps / d) x ∧ ∀ y, ColebrookWhite re (eps / d) y → y = x := by
  have hx := (C92_colebrook_root hre hd he).1 (hroot _ _ _ h)
  refine ⟨hx, ?_⟩
  have anti : ∀ {u v : ℝ}, ColebrookWhite re (eps / d) u → ColebrookWhite re (eps / d) v → ¬ u < v := by
    rintro u v ⟨hu, eu⟩ ⟨hv, ev⟩ huv
    have hs : Real.sqrt u < Real.sqrt v := Real.sqrt_lt_sqrt hu.le huv
    have hsu : 0 < Real.sqrt u := Real.sqrt_pos.2 hu
    have h1 : 1 / Real.sqrt v < 1 / Real.sqrt u := one_div_lt_one_div_of_lt hsu hs
    have h2 : 2.51 / (re * Real.sqrt v) < 2.51 / (re * Real.sqrt u) :=
      div_lt_div_of_pos_left (by norm_num) (by positivity) (by nlinarith)
    have hr : 0 ≤ eps / d / 3.7 := by positivity
    have hvp : 0 < 2.51 / (re * Real.sqrt v) := by have := hsu.trans hs; positivity
    have h3 : Real.logb 10 (eps / d / 3.7 + 2.51 / (re * Real.sqrt v)) < Real.logb 10 (eps / d / 3.7 + 2.51 / (re * Real.sqrt u)) :=
      Real.logb_lt_logb (by norm_num) (by linarith) (by linarith)
    linarith
  intro y hy
  exact le_antisymm (not_lt.1 (anti hx hy)) (not_lt.1 (anti hy hx))

/-- **C92 is false of the code when the solver fails**: whatever it returns is handed on (`success` is not looked at), whether or not it solves the equation. -/
theorem C92_colebrook_violated : ∃ (root : (ℝ → Res ℝ) → ℝ → Res ℝ) (x : ℝ), frictionColebrook root 10000 0 1 = .ok x ∧ ¬ ColebrookWhite 10000 0 x := by
  refine ⟨fun _ _ => .ok 1, 1, rfl, ?_⟩
  rintro ⟨_, h⟩
  have hlt : Real.logb 10 ((0 : ℝ) / 3.7 + 2.51 / (10000 * Real.sqrt 1)) < -1 := by
    rw [Real.sqrt_one, Real.logb_lt_iff_lt_rpow (by norm_num) (by norm_num), Real.rpow_neg_one]
    norm_num
  rw [Real.sqrt_one] at h hlt
  linarith

end Auxi.Transport.Props
