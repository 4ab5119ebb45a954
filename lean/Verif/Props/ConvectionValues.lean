import Verif.Props.Convection

/-!
# C90 (values), C101, C102: natural convection at an isothermal flat surface
-/
namespace Auxi.Transport.Props
open Auxi.Transport Auxi.Transport.Spec

/-! ### C90: the Rayleigh and Prandtl numbers, and the value -/

/-- **C90 (Rayleigh and Prandtl numbers).** The properties are taken at the film temperature, which lies 38 % (gas) or 50 % (liquid) of the way from the surface to
the fluid (the expansion coefficient of a gas at the temperature of the fluid); only the component of gravity along the surface acts on a hot surface tilted by less
than 45 degrees, and on a cold one tilted so the other way. -/
theorem C90_numbers {fl : Fluid} {isgas : Bool} {L theta Ts Tf Tr beta nu alpha g : ℝ} (hTr : Tr = Ts - (if isgas then 0.38 else 0.5) * (Ts - Tf))
    (hb : fl.beta (if isgas then Tf else Tr) = .ok beta) (hn : fl.nu Tr = .ok nu) (ha : fl.alpha Tr = .ok alpha) (hn0 : nu ≠ 0) (ha0 : alpha ≠ 0)
    (hg : g = if (Tf < Ts ∧ 0 < theta ∧ theta < 45) ∨ (Ts ≤ Tf ∧ -45 < theta ∧ theta < 0) then 9.80665 * Real.cos (theta * Real.pi / 180) else 9.80665) :
    numbers fl isgas L theta Ts Tf = .ok (g * beta * (Ts - Tf) * L ^ 3 / (nu * alpha), nu / alpha) := by
  have e : refTemp isgas Ts Tf = Tr := by unfold refTemp; cases isgas <;> simp [hTr]
  have eg : effectiveGravity theta Ts Tf = g := by
    unfold effectiveGravity gravity
    rw [hg]
    by_cases h : Tf < Ts
    · rw [if_pos h]
      by_cases h2 : 0 < theta ∧ theta < 45
      · rw [if_pos h2, if_pos (Or.inl ⟨h, h2⟩)]
      · rw [if_neg h2, if_neg]; rintro (h3 | h3)
        · exact h2 h3.2
        · exact absurd h3.1 (not_le.2 h)
    · rw [if_neg h]
      by_cases h2 : -45 < theta ∧ theta < 0
      · rw [if_pos h2, if_pos (Or.inr ⟨not_lt.1 h, h2⟩)]
      · rw [if_neg h2, if_neg]; rintro (h3 | h3)
        · exact h h3.1
        · exact h2 h3.2
  unfold numbers
  simp only [e, eg, hb, hn, ha]
  unfold Gr Pr
  rw [div_ok (pow_ne_zero 2 hn0)]; dsimp only
  rw [div_ok ha0]
  simp only [Except.ok.injEq, Prod.mk.injEq, and_true]
  field_simp

theorem eval_eq (q : Equation) {ra pr : ℝ} (hr : 0 ≤ ra) (hp : 0 < pr) : q.eval ra pr = .ok (.real (Textbook q ra pr)) := by
  have e1 : ∀ e, (PNum.real ra).pow e = .real (ra ^ e) := fun e => if_neg (not_lt.2 hr)
  have q1 : PNum.div (.real pr) (.real (0.952 + pr)) = .ok (.real (pr / (0.952 + pr))) := if_neg (by positivity)
  have q2 : PNum.div (.real 0.492) (.real pr) = .ok (.real (0.492 / pr)) := if_neg hp.ne'
  have q3 : (PNum.real (pr / (0.952 + pr))).pow 0.25 = .real ((pr / (0.952 + pr)) ^ (0.25 : ℝ)) := if_neg (not_lt.2 (by positivity))
  have q4 : (PNum.real (0.492 / pr)).pow (9 / 16) = .real ((0.492 / pr) ^ (9 / 16 : ℝ)) := if_neg (not_lt.2 (by positivity))
  have q5 : (PNum.real (1 + (0.492 / pr) ^ (9 / 16 : ℝ))).pow (4 / 9) = .real ((1 + (0.492 / pr) ^ (9 / 16 : ℝ)) ^ (4 / 9 : ℝ)) :=
    if_neg (not_lt.2 (by positivity))
  have q6 : ∀ a, PNum.div (.real a) (.real ((1 + (0.492 / pr) ^ (9 / 16 : ℝ)) ^ (4 / 9 : ℝ))) =
      .ok (.real (a / (1 + (0.492 / pr) ^ (9 / 16 : ℝ)) ^ (4 / 9 : ℝ))) := fun a => if_neg (by positivity)
  have h27 : nu8_27 ra pr = .ok (.real (0.68 + 0.67 * ra ^ (1 / 4 : ℝ) / (1 + (0.492 / pr) ^ (9 / 16 : ℝ)) ^ (4 / 9 : ℝ))) := by
    unfold nu8_27
    rw [q2]; dsimp only
    rw [q4, e1]
    simp only [PNum.mul, PNum.add]
    rw [q5, q6]
    simp only [PNum.add]
    norm_num
  cases q
  · simp only [Equation.eval, nu8_26, q1, q3, e1, PNum.mul, Textbook]; norm_num
  · exact h27
  · exact h27
  · simp only [Equation.eval, e1, PNum.mul, Textbook]; norm_num
  · simp only [Equation.eval, e1, PNum.mul, Textbook]; norm_num
  · simp only [Equation.eval, e1, PNum.mul, Textbook]

theorem textbook_pos (q : Equation) {ra pr : ℝ} (hr : 0 < ra) (hp : 0 < pr) : 0 < Textbook q ra pr := by
  cases q <;> simp only [Textbook] <;> positivity

theorem gravity_pos {Ts Tf theta g : ℝ}
    (hg : g = if (Tf < Ts ∧ 0 < theta ∧ theta < 45) ∨ (Ts ≤ Tf ∧ -45 < theta ∧ theta < 0) then 9.80665 * Real.cos (theta * Real.pi / 180) else 9.80665) :
    0 < g := by
  rw [hg]
  split
  · rename_i h
    have hp := Real.pi_pos
    have h2 : -45 < theta ∧ theta < 45 := by rcases h with ⟨_, h1, h2⟩ | ⟨_, h1, h2⟩ <;> constructor <;> linarith
    have : 0 < Real.cos (theta * Real.pi / 180) := Real.cos_pos_of_mem_Ioo ⟨by nlinarith, by nlinarith⟩
    positivity
  · norm_num

/-- **C90 (value).** For a surface at least as hot as the fluid the local Nusselt number is that of the selected correlation at the Rayleigh and Prandtl numbers of
`C90_numbers`; for a hotter surface it is positive. -/
theorem C90_value {fl : Fluid} {isgas : Bool} {L theta Ts Tf ra pr : ℝ} {q : Equation} (hnum : numbers fl isgas L theta Ts Tf = .ok (ra, pr))
    (hra : 0 ≤ ra) (hpr : 0 < pr) (hq : choose theta ra regions = .ok q) :
    NuX fl isgas L theta Ts (some Tf) = .ok (.real (Textbook q ra pr)) := by
  unfold NuX
  simp only [hnum, hq]
  exact eval_eq q hra hpr

/-- **C90 (hot surface).** With regular fluid properties, every angle other than 88 degrees and every length, a surface hotter than the fluid has a positive local Nusselt number,
and one as hot as the fluid has the value of the correlation at Ra = 0. -/
theorem C90_hot {fl : Fluid} (hfl : Regular fl) {isgas : Bool} {L theta Ts Tf : ℝ} (hL : 0 < L) (hth : Angle theta) (h88 : theta ≠ 88) (hT : Tf < Ts) :
    ∃ ra pr q, 0 < ra ∧ 0 < pr ∧ numbers fl isgas L theta Ts Tf = .ok (ra, pr) ∧ choose theta ra regions = .ok q ∧
      NuX fl isgas L theta Ts (some Tf) = .ok (.real (Textbook q ra pr)) ∧ 0 < Textbook q ra pr := by
  obtain ⟨b, hb, hb0⟩ := hfl.beta (if isgas then Tf else Ts - (if isgas then 0.38 else 0.5) * (Ts - Tf))
  obtain ⟨n, hn, hn0⟩ := hfl.nu (Ts - (if isgas then 0.38 else 0.5) * (Ts - Tf))
  obtain ⟨a, ha, ha0⟩ := hfl.alpha (Ts - (if isgas then 0.38 else 0.5) * (Ts - Tf))
  obtain ⟨g, eg⟩ : ∃ g : ℝ, g = if (Tf < Ts ∧ 0 < theta ∧ theta < 45) ∨ (Ts ≤ Tf ∧ -45 < theta ∧ theta < 0) then 9.80665 * Real.cos (theta * Real.pi / 180) else 9.80665 := ⟨_, rfl⟩
  have hnum := C90_numbers (L := L) rfl hb hn ha hn0.ne' ha0.ne' eg
  have hg := gravity_pos eg
  have hr := sub_pos.2 hT
  have hra : 0 < g * b * (Ts - Tf) * L ^ 3 / (n * a) := by positivity
  obtain ⟨q, hq⟩ := C90_total (ra := g * b * (Ts - Tf) * L ^ 3 / (n * a)) hth fun h => h88 h.1
  have hpr : 0 < n / a := by positivity
  exact ⟨_, _, q, hra, hpr, hnum, hq, C90_value hnum hra.le hpr hq, textbook_pos q hra hpr⟩

theorem eval_neg (q : Equation) {ra pr : ℝ} (hr : ra < 0) (hp : 0 < pr) : q.eval ra pr = .ok .complex := by
  have e1 : ∀ e, (PNum.real ra).pow e = .complex := fun e => if_pos hr
  have q1 : PNum.div (.real pr) (.real (0.952 + pr)) = .ok (.real (pr / (0.952 + pr))) := if_neg (by positivity)
  have q2 : PNum.div (.real 0.492) (.real pr) = .ok (.real (0.492 / pr)) := if_neg hp.ne'
  have q4 : (PNum.real (0.492 / pr)).pow (9 / 16) = .real ((0.492 / pr) ^ (9 / 16 : ℝ)) := if_neg (not_lt.2 (by positivity))
  have q5 : (PNum.real (1 + (0.492 / pr) ^ (9 / 16 : ℝ))).pow (4 / 9) = .real ((1 + (0.492 / pr) ^ (9 / 16 : ℝ)) ^ (4 / 9 : ℝ)) :=
    if_neg (not_lt.2 (by positivity))
  have q6 : PNum.div .complex (.real ((1 + (0.492 / pr) ^ (9 / 16 : ℝ)) ^ (4 / 9 : ℝ))) = .ok .complex := if_neg (by positivity)
  have h27 : nu8_27 ra pr = .ok .complex := by
    unfold nu8_27
    rw [q2]; dsimp only
    rw [q4, e1]
    simp only [PNum.mul, PNum.add]
    rw [q5, q6]
  cases q
  · simp only [Equation.eval, nu8_26, q1, e1, PNum.mul]
  · exact h27
  · exact h27
  · simp only [Equation.eval, e1, PNum.mul]
  · simp only [Equation.eval, e1, PNum.mul]
  · simp only [Equation.eval, e1, PNum.mul]

/-- **C90 is false of the code for cold surfaces**: whatever the fluid, the length, the angle (other than 88 degrees, where there is an `IndexError`) and the temperatures, if the
surface is colder than the fluid the Nusselt number is a complex number, because a negative Rayleigh number is raised to a fractional power. -/
theorem C90_cold_violated {fl : Fluid} (hfl : Regular fl) {isgas : Bool} {L theta Ts Tf : ℝ} (hL : 0 < L) (hth : Angle theta) (hT : Ts < Tf) :
    NuX fl isgas L theta Ts (some Tf) = if theta = 88 then .error .indexError else .ok .complex := by
  obtain ⟨b, hb, hb0⟩ := hfl.beta (if isgas then Tf else Ts - (if isgas then 0.38 else 0.5) * (Ts - Tf))
  obtain ⟨n, hn, hn0⟩ := hfl.nu (Ts - (if isgas then 0.38 else 0.5) * (Ts - Tf))
  obtain ⟨a, ha, ha0⟩ := hfl.alpha (Ts - (if isgas then 0.38 else 0.5) * (Ts - Tf))
  obtain ⟨g, eg⟩ : ∃ g : ℝ, g = if (Tf < Ts ∧ 0 < theta ∧ theta < 45) ∨ (Ts ≤ Tf ∧ -45 < theta ∧ theta < 0) then 9.80665 * Real.cos (theta * Real.pi / 180) else 9.80665 := ⟨_, rfl⟩
  have hnum := C90_numbers (L := L) rfl hb hn ha hn0.ne' ha0.ne' eg
  have hg := gravity_pos eg
  have hr := sub_pos.2 hT
  have hra : g * b * (Ts - Tf) * L ^ 3 / (n * a) < 0 := by
    rw [show g * b * (Ts - Tf) * L ^ 3 / (n * a) = -(g * b * (Tf - Ts) * L ^ 3 / (n * a)) by ring, neg_lt_zero]
    positivity
  have hpr : 0 < n / a := by positivity
  unfold NuX
  simp only [hnum]
  by_cases h88 : theta = 88
  · rw [if_pos h88]
    have := C90_violated.2.1 _ (hra.trans (by norm_num : (0 : ℝ) < 6))
    rw [← h88] at this
    rw [this]
  · rw [if_neg h88]
    obtain ⟨q, hq⟩ := C90_total (ra := g * b * (Ts - Tf) * L ^ 3 / (n * a)) hth fun h => h88 h.1
    rw [hq]
    exact eval_neg q hra hpr

/-- Without a temperature of the fluid there is a `KeyError`. -/
theorem C90_missing (fl : Fluid) (isgas : Bool) (L theta Ts : ℝ) : NuX fl isgas L theta Ts none = .error .keyError ∧
    NuL fl isgas L theta Ts none = .error .keyError ∧ hX fl isgas L theta Ts none = .error .keyError ∧ hL fl isgas L theta Ts none = .error .keyError :=
  ⟨rfl, rfl, rfl, rfl⟩

/-! ### C102: coefficients and Nusselt numbers -/

/-- **C102.** The local heat transfer coefficient and the local Nusselt number agree (`Nu = h L / k` with the conductivity at the film temperature), the average
Nusselt number is 4/3 of the local one, and so is the average heat transfer coefficient. -/
theorem C102_coefficients {fl : Fluid} {isgas : Bool} {L theta Ts Tf k nu : ℝ} (hL0 : L ≠ 0) (hk : k ≠ 0)
    (hc : fl.k (Ts - (if isgas then 0.38 else 0.5) * (Ts - Tf)) = .ok k) (hnu : NuX fl isgas L theta Ts (some Tf) = .ok (.real nu)) :
    ∃ h hav nuav, hX fl isgas L theta Ts (some Tf) = .ok (.real h) ∧ Transport.hL fl isgas L theta Ts (some Tf) = .ok (.real hav) ∧
      NuL fl isgas L theta Ts (some Tf) = .ok (.real nuav) ∧ Nu L h k = .ok nu ∧ Nu L hav k = .ok nuav ∧ nuav = 4 / 3 * nu ∧ hav = 4 / 3 * h := by
  have e : refTemp isgas Ts Tf = Ts - (if isgas then 0.38 else 0.5) * (Ts - Tf) := by unfold refTemp; cases isgas <;> simp
  have hav : NuL fl isgas L theta Ts (some Tf) = .ok (.real (nu / 0.75)) := by
    unfold NuL; rw [hnu]; exact if_neg (by norm_num)
  have co : ∀ x : ℝ, coefficient fl isgas L Ts (some Tf) (.ok (.real x)) = .ok (.real (x * k / L)) := by
    intro x
    unfold coefficient
    simp only [Option.getD_some, e, hc, PNum.mul]
    exact if_neg hL0
  refine ⟨nu * k / L, nu / 0.75 * k / L, nu / 0.75, ?_, ?_, hav, ?_, ?_, ?_, ?_⟩
  · unfold hX; rw [hnu]; exact co _
  · unfold Transport.hL; rw [hav]; exact co _
  · unfold Nu; rw [div_ok hk]; congr 1; field_simp
  · unfold Nu; rw [div_ok hk]; congr 1; field_simp
  · ring
  · ring

/-! ### C101: more buoyancy, more heat transfer -/

theorem textbook_mono (q : Equation) {ra ra' pr : ℝ} (h0 : 0 ≤ ra) (h : ra < ra') (hp : 0 < pr) : Textbook q ra pr < Textbook q ra' pr := by
  have m : ∀ e : ℝ, 0 < e → ra ^ e < ra' ^ e := fun e he => Real.rpow_lt_rpow h0 h he
  cases q <;> simp only [Textbook]
  · have := m (1 / 4) (by norm_num)
    gcongr
  · have := m (1 / 4) (by norm_num)
    gcongr
  · have := m (1 / 4) (by norm_num)
    gcongr
  · have := m (1 / 5) (by norm_num)
    gcongr
  · have := m (1 / 4) (by norm_num)
    gcongr
  · have := m (1 / 3) (by norm_num)
    gcongr

/-- The Rayleigh and Prandtl numbers of a fluid with constant properties and a hot surface: `c` (which depends on the fluid and the angle only) times `ΔT L³`. -/
theorem constant_numbers {fl : Fluid} {beta nu alpha k : ℝ} (hfl : Constant fl beta nu alpha k) (hb : 0 < beta) (hn : 0 < nu) (ha : 0 < alpha)
    (theta : ℝ) : ∃ c, 0 < c ∧ ∀ isgas L Ts Tf, Tf < Ts → numbers fl isgas L theta Ts Tf = .ok (c * ((Ts - Tf) * L ^ 3), nu / alpha) := by
  obtain ⟨g, eg⟩ : ∃ g : ℝ, g = if ((0 : ℝ) < 1 ∧ 0 < theta ∧ theta < 45) ∨ ((1 : ℝ) ≤ 0 ∧ -45 < theta ∧ theta < 0)
      then 9.80665 * Real.cos (theta * Real.pi / 180) else 9.80665 := ⟨_, rfl⟩
  have hg := gravity_pos eg
  refine ⟨g * beta / (nu * alpha), by positivity, fun isgas L Ts Tf hT => ?_⟩
  have e : ((Tf < Ts ∧ 0 < theta ∧ theta < 45) ∨ (Ts ≤ Tf ∧ -45 < theta ∧ theta < 0)) ↔
      (((0 : ℝ) < 1 ∧ 0 < theta ∧ theta < 45) ∨ ((1 : ℝ) ≤ 0 ∧ -45 < theta ∧ theta < 0)) := by
    constructor
    · rintro (h | h)
      · exact Or.inl ⟨one_pos, h.2⟩
      · exact absurd h.1 (not_le.2 hT)
    · rintro (h | h)
      · exact Or.inl ⟨hT, h.2⟩
      · exact absurd h.1 (by norm_num)
  rw [C90_numbers (g := g) rfl (hfl.beta _) (hfl.nu _) (hfl.alpha _) hn.ne' ha.ne' (by rw [eg]; simp only [e])]
  rw [Except.ok.injEq, Prod.mk.injEq]
  exact ⟨by ring, rfl⟩

/-- **C101 (partial).** In a fluid with constant properties and at a fixed angle above -52 degrees, other than the angles 0 and 88 of `C90_violated`, a larger `ΔT L³` (a longer surface, a
larger temperature difference) gives a larger Nusselt number. -/
theorem C101_grows_partial {fl : Fluid} {beta nu alpha k : ℝ} (hfl : Constant fl beta nu alpha k) (hb : 0 < beta) (hn : 0 < nu) (ha : 0 < alpha)
    {theta : ℝ} (hth : Angle theta) (h1 : -52 < theta) (h2 : theta ≠ 0) (h3 : theta ≠ 88) {isgas : Bool} {L L' Ts Ts' Tf Tf' : ℝ} (hL : 0 < L) (hT : Tf < Ts)
    (hT' : Tf' < Ts') (h : (Ts - Tf) * L ^ 3 < (Ts' - Tf') * L' ^ 3) :
    ∃ x y, NuX fl isgas L theta Ts (some Tf) = .ok (.real x) ∧ NuX fl isgas L' theta Ts' (some Tf') = .ok (.real y) ∧ x < y := by
  obtain ⟨c, hc, hnum⟩ := constant_numbers hfl hb hn ha theta
  have hp : 0 < nu / alpha := by positivity
  have h0 : 0 < c * ((Ts - Tf) * L ^ 3) := by have := sub_pos.2 hT; positivity
  have hlt : c * ((Ts - Tf) * L ^ 3) < c * ((Ts' - Tf') * L' ^ 3) := mul_lt_mul_of_pos_left h hc
  obtain ⟨q, hq⟩ : ∃ q, ∀ ra, choose theta ra regions = .ok q := by
    have r := List.Perm.refl regions
    rcases lt_trichotomy theta 0 with h4 | h4 | h4
    · exact ⟨_, fun ra => C90_inclined_up h1 h4 r⟩
    · exact absurd h4 h2
    rcases lt_or_ge theta 88 with h5 | h5
    · exact ⟨_, fun ra => C90_inclined_down h4 h5 r⟩
    · exact ⟨_, fun ra => C90_down h5 hth.2 (fun h => h3 h.1) r⟩
  exact ⟨_, _, C90_value (hnum isgas L Ts Tf hT) h0.le hp (hq _), C90_value (hnum isgas L' Ts' Tf' hT') (h0.trans hlt).le hp (hq _),
    textbook_mono q h0.le hlt hp⟩

/-- **C101 is false of the code at Ra = 7 for surfaces from -90 to -52 degrees**: there the Nusselt number falls from 0.59 Ra^(1/4) (about 0.96) to 0.1 Ra^(1/3) (about 0.19), so of two surfaces in the
same fluid the longer one has the smaller Nusselt number.  (The table was made for the logarithm of the Rayleigh number, the code compares the number itself.) -/
theorem C101_violated {fl : Fluid} {beta nu alpha k : ℝ} (hfl : Constant fl beta nu alpha k) (hb : 0 < beta) (hn : 0 < nu) (ha : 0 < alpha)
    {theta : ℝ} (h1 : -90 ≤ theta) (h2 : theta ≤ -52) (isgas : Bool) {Ts Tf : ℝ} (hT : Tf < Ts) :
    ∃ L L' x y, 0 < L ∧ L < L' ∧ NuX fl isgas L theta Ts (some Tf) = .ok (.real x) ∧ NuX fl isgas L' theta Ts (some Tf) = .ok (.real y) ∧ y < x := by
  obtain ⟨c, hc, hnum⟩ := constant_numbers hfl hb hn ha theta
  have hp : 0 < nu / alpha := by positivity
  have hd := sub_pos.2 hT
  -- the lengths with Ra = 7 and Ra = 8
  have key : ∀ ra : ℝ, 0 < ra → 0 < (ra / (c * (Ts - Tf))) ^ (1 / 3 : ℝ) ∧ c * ((Ts - Tf) * ((ra / (c * (Ts - Tf))) ^ (1 / 3 : ℝ)) ^ 3) = ra := by
    intro ra hra
    have hb : 0 < ra / (c * (Ts - Tf)) := by positivity
    refine ⟨Real.rpow_pos_of_pos hb _, ?_⟩
    have : ((ra / (c * (Ts - Tf))) ^ (1 / 3 : ℝ)) ^ 3 = ra / (c * (Ts - Tf)) := by
      rw [← Real.rpow_natCast, ← Real.rpow_mul hb.le]; norm_num
    rw [this]; field_simp
  obtain ⟨p7, e7⟩ := key 7 (by norm_num)
  obtain ⟨p8, e8⟩ := key 8 (by norm_num)
  have n7 := hnum isgas ((7 / (c * (Ts - Tf))) ^ (1 / 3 : ℝ)) Ts Tf hT
  have n8 := hnum isgas ((8 / (c * (Ts - Tf))) ^ (1 / 3 : ℝ)) Ts Tf hT
  rw [e7] at n7
  rw [e8] at n8
  have c7 := C90_up (ra := 7) h1 h2 (List.Perm.refl _)
  have c8 := C90_up (ra := 8) h1 h2 (List.Perm.refl _)
  rw [if_pos le_rfl] at c7
  rw [if_neg (by norm_num)] at c8
  refine ⟨_, _, _, _, p7, ?_, C90_value n7 (by norm_num) hp c7, C90_value n8 (by norm_num) hp c8, ?_⟩
  · exact Real.rpow_lt_rpow (by positivity) (by gcongr; norm_num) (by norm_num)
  · simp only [Textbook]
    have h8 : (8 : ℝ) ^ (1 / 3 : ℝ) = 2 := by
      rw [show (8 : ℝ) = 2 ^ (3 : ℝ) by norm_num, ← Real.rpow_mul (by norm_num)]; norm_num
    have h7 : (1 : ℝ) ≤ 7 ^ (1 / 4 : ℝ) := Real.one_le_rpow (by norm_num) (by norm_num)
    rw [h8]
    linarith

/-- **C101 (partial, from -90 to -52 degrees).** The Nusselt number grows with `ΔT L³` on either side of Ra = 7. -/
theorem C101_grows_up_partial {fl : Fluid} {beta nu alpha k : ℝ} (hfl : Constant fl beta nu alpha k) (hb : 0 < beta) (hn : 0 < nu) (ha : 0 < alpha)
    {theta : ℝ} (h1 : -90 ≤ theta) (h2 : theta ≤ -52) {isgas : Bool} {L L' Ts Ts' Tf Tf' ra ra' pr : ℝ} (hL : 0 < L) (hT : Tf < Ts) (hT' : Tf' < Ts')
    (hra : numbers fl isgas L theta Ts Tf = .ok (ra, pr)) (hra' : numbers fl isgas L' theta Ts' Tf' = .ok (ra', pr))
    (h7 : ra' ≤ 7 ∨ 7 < ra) (h : (Ts - Tf) * L ^ 3 < (Ts' - Tf') * L' ^ 3) :
    ∃ x y, NuX fl isgas L theta Ts (some Tf) = .ok (.real x) ∧ NuX fl isgas L' theta Ts' (some Tf') = .ok (.real y) ∧ x < y := by
  obtain ⟨c, hc, hnum⟩ := constant_numbers hfl hb hn ha theta
  have hp : 0 < nu / alpha := by positivity
  have h0 : 0 < c * ((Ts - Tf) * L ^ 3) := by have := sub_pos.2 hT; positivity
  have hlt : c * ((Ts - Tf) * L ^ 3) < c * ((Ts' - Tf') * L' ^ 3) := mul_lt_mul_of_pos_left h hc
  rw [hnum isgas L Ts Tf hT, Except.ok.injEq, Prod.mk.injEq] at hra
  rw [hnum isgas L' Ts' Tf' hT', Except.ok.injEq, Prod.mk.injEq] at hra'
  rw [← hra.1, ← hra'.1] at h7
  have r := List.Perm.refl regions
  rcases h7 with h7 | h7
  · exact ⟨_, _, C90_value (hnum isgas L Ts Tf hT) h0.le hp ((C90_up h1 h2 r).trans (by rw [if_pos (hlt.le.trans h7)])),
      C90_value (hnum isgas L' Ts' Tf' hT') (h0.trans hlt).le hp ((C90_up h1 h2 r).trans (by rw [if_pos h7])), textbook_mono .eq9_22 h0.le hlt hp⟩
  · exact ⟨_, _, C90_value (hnum isgas L Ts Tf hT) h0.le hp ((C90_up h1 h2 r).trans (by rw [if_neg (not_le.2 h7)])),
      C90_value (hnum isgas L' Ts' Tf' hT') (h0.trans hlt).le hp ((C90_up h1 h2 r).trans (by rw [if_neg (not_le.2 (h7.trans hlt))])),
      textbook_mono .eq9_23 h0.le hlt hp⟩

/-! ### Concrete cases -/

/-- A fluid with constant properties. -/
noncomputable def water : Fluid := ⟨fun _ => .ok (2 / 10000), fun _ => .ok (1 / 1000000), fun _ => .ok (1 / 7000000), fun _ => .ok (6 / 10)⟩

theorem water_constant : Constant water (2 / 10000) (1 / 1000000) (1 / 7000000) (6 / 10) := ⟨fun _ => rfl, fun _ => rfl, fun _ => rfl, fun _ => rfl⟩
theorem water_regular : Regular water :=
  ⟨fun _ => ⟨_, rfl, by norm_num⟩, fun _ => ⟨_, rfl, by norm_num⟩, fun _ => ⟨_, rfl, by norm_num⟩, fun _ => ⟨_, rfl, by norm_num⟩⟩

example : ∃ x, NuX water false 1 30 320 (some 300) = .ok (.real x) ∧ 0 < x := by
  obtain ⟨_, _, _, _, _, _, _, h, hp⟩ := C90_hot water_regular (isgas := false) (L := 1) (theta := 30) (Ts := 320) (Tf := 300) one_pos
    ⟨by norm_num, by norm_num⟩ (by norm_num) (by norm_num)
  exact ⟨_, h, hp⟩
example : NuX water false 1 30 300 (some 320) = .ok .complex := by
  rw [C90_cold_violated water_regular one_pos ⟨by norm_num, by norm_num⟩ (by norm_num), if_neg (by norm_num)]
example : ∃ x y, NuX water false 1 30 320 (some 300) = .ok (.real x) ∧ NuX water false 2 30 310 (some 300) = .ok (.real y) ∧ x < y :=
  C101_grows_partial water_constant (by norm_num) (by norm_num) (by norm_num) ⟨by norm_num, by norm_num⟩ (by norm_num) (by norm_num) (by norm_num)
    one_pos (by norm_num) (by norm_num) (by norm_num)
example : ∃ L L' x y, 0 < L ∧ L < L' ∧ NuX water false L (-90) 320 (some 300) = .ok (.real x) ∧ NuX water false L' (-90) 320 (some 300) = .ok (.real y) ∧ y < x :=
  C101_violated water_constant (by norm_num) (by norm_num) (by norm_num) le_rfl (by norm_num) false (by norm_num)

end Auxi.Transport.Props
