import Verif.Proofs.ShippedFluids

/-! # C109, C110: the gases and the water shipped with the code -/
namespace Auxi.Phys.Props
open Auxi Auxi.Phys Spec
open Auxi.Stoich (CDict)
open Auxi.PolyPos (eval posOn smul mul deriv add)

/-! ## C109: the shipped fluids have their properties over the range of the data -/

/-- **C109** (gases): at every temperature that the data of a shipped gas cover, all its properties are defined and positive, also the two that are calculated. -/
theorem C109_gas (f : Str) (m : Mat) (hm : IsGas f m) (T : ℝ) (hT : Covered f T) : ∃ cp mu k rho beta nu alpha : ℝ,
    Is m.Cp T cp ∧ 0 < cp ∧ Is m.mu T mu ∧ 0 < mu ∧ Is m.k T k ∧ 0 < k ∧ Is m.rho T rho ∧ 0 < rho ∧ Is m.beta T beta ∧ 0 < beta ∧
    m.getNu (temp T) = .ok nu ∧ 0 < nu ∧ m.getAlpha (temp T) = .ok alpha ∧ 0 < alpha := by
  obtain ⟨d, hd, rfl⟩ := hm
  have g := gas_at hd hT
  obtain ⟨r, hr, r0, -, -⟩ := g.rho
  have := g.T0
  have := g.cp0
  have := g.mu0
  have := g.k0
  exact ⟨_, _, _, r, _, _, _, g.cp, g.cp0, g.mu, g.mu0, g.k, g.k0, hr, r0, betaT_value g.T0, by positivity, C93_nu rfl g.mu hr r0.ne', by positivity,
    C93_alpha rfl g.k hr g.cp r0.ne' g.cp0.ne', by positivity⟩

theorem air_covered {T : ℝ} (h0 : 100 ≤ T) (h1 : T ≤ 1500) : Covered "Air".toList T := ⟨100, 1500, by decide +kernel, by push_cast; linarith, by push_cast; linarith⟩

/-- A concrete case: air at 300 K. -/
example : ∃ cp mu k rho beta nu alpha : ℝ, Is (gasMat "Air".toList dataAir).Cp 300 cp ∧ 0 < cp ∧ Is (gasMat "Air".toList dataAir).mu 300 mu ∧ 0 < mu ∧
    Is (gasMat "Air".toList dataAir).k 300 k ∧ 0 < k ∧ Is (gasMat "Air".toList dataAir).rho 300 rho ∧ 0 < rho ∧ Is (gasMat "Air".toList dataAir).beta 300 beta ∧ 0 < beta ∧
    (gasMat "Air".toList dataAir).getNu (temp 300) = .ok nu ∧ 0 < nu ∧ (gasMat "Air".toList dataAir).getAlpha (temp 300) = .ok alpha ∧ 0 < alpha :=
  C109_gas "Air".toList (gasMat "Air".toList dataAir) ⟨dataAir, by simp [gasData], rfl⟩ 300 (air_covered (by norm_num) (by norm_num))

/-- **C109** (gases, outside the data): at every temperature that the data of a shipped gas do not cover, heat capacity, viscosity, conductivity and the two calculated
properties are refused with a validation error. -/
theorem C109_gas_refused (f : Str) (m : Mat) (hm : IsGas f m) (T : ℝ) (hT : ¬ Covered f T) :
    prop m.Cp (temp T) = .error .exception ∧ prop m.mu (temp T) = .error .exception ∧ prop m.k (temp T) = .error .exception ∧
    m.getNu (temp T) = .error .exception ∧ m.getAlpha (temp T) = .error .exception := by
  obtain ⟨d, hd, rfl⟩ := hm
  have k := List.all_eq_true.1 gases_checked _ hd
  simp only [gasCheck, Bool.and_eq_true, decide_eq_true_eq] at k
  obtain ⟨⟨⟨⟨⟨⟨⟨⟨⟨hr, m1, m2, k1, k2, p0, p1, ms⟩, -⟩, -⟩, -⟩, -⟩, -⟩, -⟩, -⟩, -⟩ := k
  have ho : T < (d.Cp.tmin : ℝ) ∨ (d.Cp.tmax : ℝ) < T := by
    by_contra hn
    rw [not_or, not_lt, not_lt] at hn
    exact hT ⟨_, _, hr, hn.1, hn.2⟩
  have e1 : d.Cp.poly.calculate (temp T) = .error .exception := d.Cp.refused ho
  have e2 : d.mu.poly.calculate (temp T) = .error .exception := d.mu.refused (by rw [m1, m2]; exact ho)
  have e3 : d.k.poly.calculate (temp T) = .error .exception := d.k.refused (by rw [k1, k2]; exact ho)
  refine ⟨e1, e2, e3, ?_, ?_⟩
  · unfold Mat.getNu gasMat prop; simp only [e2]
  · unfold Mat.getAlpha gasMat prop; simp only [e3]

example : (gasMat "Air".toList dataAir).getNu (temp 1600) = .error .exception :=
  (C109_gas_refused "Air".toList (gasMat "Air".toList dataAir) ⟨dataAir, by simp [gasData], rfl⟩ 1600 (by
    rintro ⟨lo, hi, h, h0, h1⟩
    have h2 : (lo, hi) = (100, 1500) := by
      have := List.inj_on_of_nodup_map ranges_keys h (show ("Air".toList, (100 : ℚ), (1500 : ℚ)) ∈ gasRanges by simp [gasRanges]) rfl
      simpa using this
    cases h2
    norm_num at h1)).2.2.2.1

/-- What the check says of water. -/
theorem water_at {T : ℝ} (h : WaterCovered T) :
    (Is water.Cp T (eval dataWater.Cp.low T) ∧ Is water.k T (eval dataWater.k.low T) ∧ Is water.mu T (eval dataWater.mu.low T) ∧ Is water.nu T (eval dataWater.nu.low T) ∧
      Is water.rho T (eval dataWater.rho.low T) ∧ Is water.beta T (eval dataWater.beta.low T)) ∧
    (0 < eval dataWater.Cp.low T ∧ 0 < eval dataWater.k.low T ∧ 0 < eval dataWater.mu.low T ∧ 0 < eval dataWater.nu.low T ∧ 0 < eval dataWater.rho.low T) ∧
    0.979 * eval dataWater.mu.low T < eval dataWater.nu.low T * eval dataWater.rho.low T ∧ eval dataWater.nu.low T * eval dataWater.rho.low T < 1.021 * eval dataWater.mu.low T := by
  have k := water_checked
  simp only [waterCheck, Bool.and_eq_true, decide_eq_true_eq, Prod.mk.injEq] at k
  obtain ⟨⟨⟨⟨⟨⟨⟨⟨⟨⟨⟨⟨⟨⟨⟨a1, a2⟩, ⟨b1, b2⟩, ⟨c1, c2⟩, ⟨d1, d2⟩, ⟨e1, e2⟩, ⟨f1, f2⟩⟩, g1⟩, g2⟩, g3⟩, g4⟩, g5⟩, g6⟩, g7⟩, g8⟩, g9⟩, g10⟩, g11⟩, g12⟩, g13⟩ := k
  have h0 : ((273.16 : ℚ) : ℝ) ≤ T := by have := h.1; norm_num at this ⊢; linarith
  have h1 : T ≤ ((620 : ℚ) : ℝ) := by have := h.2; norm_num at this ⊢; linarith
  have pos : ∀ {q : List ℚ}, posOn 14 273.16 620 q = true → 0 < eval q T := fun hq => PolyPos.posOn_sound hq (by norm_num) h0 h1
  have x1 := pos g12
  have x2 := pos g13
  simp only [PolyPos.eval_add, PolyPos.eval_mul, PolyPos.eval_smul] at x1 x2
  push_cast at x1 x2
  exact ⟨⟨dataWater.Cp.value (by rw [a1]; exact h0) (by rw [a2]; exact h1), dataWater.k.value (by rw [c1]; exact h0) (by rw [c2]; exact h1),
    dataWater.mu.value (by rw [d1]; exact h0) (by rw [d2]; exact h1), dataWater.nu.value (by rw [e1]; exact h0) (by rw [e2]; exact h1),
    dataWater.rho.value (by rw [f1]; exact h0) (by rw [f2]; exact h1), dataWater.beta.value (by rw [b1]; exact h0) (by rw [b2]; exact h1)⟩,
    ⟨pos g1, pos g2, pos g3, pos g4, pos g5⟩, by linarith, by linarith⟩

/-- **C109** (water): from 273.16 K to 620 K all properties of water are defined, and all but thermal expansion are positive; thermal expansion is negative up to 277 K and
positive from 277.1 K on. -/
theorem C109_water (T : ℝ) (hT : WaterCovered T) : ∃ cp mu k rho beta nu alpha : ℝ,
    Is water.Cp T cp ∧ 0 < cp ∧ Is water.mu T mu ∧ 0 < mu ∧ Is water.k T k ∧ 0 < k ∧ Is water.rho T rho ∧ 0 < rho ∧ Is water.beta T beta ∧
    water.getNu (temp T) = .ok nu ∧ 0 < nu ∧ water.getAlpha (temp T) = .ok alpha ∧ 0 < alpha ∧ (T ≤ 277 → beta < 0) ∧ (277.1 ≤ T → 0 < beta) := by
  obtain ⟨⟨v1, v2, v3, v4, v5, v6⟩, ⟨p1, p2, p3, p4, p5⟩, -⟩ := water_at hT
  have k := water_checked
  simp only [waterCheck, Bool.and_eq_true, decide_eq_true_eq, Prod.mk.injEq] at k
  have h0 : ((273.16 : ℚ) : ℝ) ≤ T := by have := hT.1; norm_num at this ⊢; linarith
  have h1 : T ≤ ((620 : ℚ) : ℝ) := by have := hT.2; norm_num at this ⊢; linarith
  refine ⟨_, _, _, _, _, _, _, v1, p1, v3, p3, v2, p2, v5, p5, v6, v4, p4, C93_alpha rfl v2 v5 v1 p5.ne' p1.ne', by positivity, fun h => ?_, fun h => ?_⟩
  · have := PolyPos.posOn_sound k.1.1.1.1.1.2 (by norm_num) h0 (by push_cast; exact h)
    rw [PolyPos.eval_smul] at this
    push_cast at this
    linarith
  · exact PolyPos.posOn_sound k.1.1.1.1.2 (by norm_num) (by push_cast; norm_num at h ⊢; exact h) h1

example : ∃ cp mu k rho beta nu alpha : ℝ,
    Is water.Cp 300 cp ∧ 0 < cp ∧ Is water.mu 300 mu ∧ 0 < mu ∧ Is water.k 300 k ∧ 0 < k ∧ Is water.rho 300 rho ∧ 0 < rho ∧ Is water.beta 300 beta ∧
    water.getNu (temp 300) = .ok nu ∧ 0 < nu ∧ water.getAlpha (temp 300) = .ok alpha ∧ 0 < alpha ∧ ((300 : ℝ) ≤ 277 → beta < 0) ∧ ((277.1 : ℝ) ≤ 300 → 0 < beta) :=
  C109_water 300 ⟨by norm_num, by norm_num⟩

theorem gas_lookup {f : Str} {T : ℝ} (h : Covered f T) : ∃ d, gasData.lookup f = some d ∧ (f, d) ∈ gasData := by
  obtain ⟨lo, hi, hr, -, -⟩ := h
  have hs : (gasData.lookup f).isSome = true := by
    have : gasRanges.all (fun e => (gasData.lookup e.1).isSome) = true := by decide +kernel
    exact List.all_eq_true.1 this _ hr
  obtain ⟨d, hd⟩ := Option.isSome_iff_exists.1 hs
  exact ⟨d, hd, mem_of_lookup hd⟩

/-- The pure viscosities and heat capacities that the mixture models use are those of the shipped gases. -/
theorem shipped_pure {f : Str} {T : ℝ} (h : Covered f T) : ∃ m, IsGas f m ∧ ∃ mu cp, Is m.mu T mu ∧ Is m.Cp T cp ∧ 0 < mu ∧ 0 < cp ∧
    Pure shippedGases.mu T f mu ∧ Pure shippedGases.cp T f cp := by
  obtain ⟨d, hl, hd⟩ := gas_lookup h
  have g := gas_at hd h
  refine ⟨_, ⟨d, hd, rfl⟩, _, _, g.mu, g.cp, g.mu0, g.cp0, ?_, ?_⟩
  · unfold Pure shippedGases gasPoly; dsimp only; rw [hl]; exact g.mu
  · unfold Pure shippedGases gasPoly; dsimp only; rw [hl]; exact g.cp

/-- **C109** (mixtures): for every mixture of shipped gases other than air, at every temperature that the data of all of them cover, the viscosity by both mixing rules and
the heat capacity are defined and positive, and the Herning-Zipperer viscosity and the heat capacity lie between those of the gases present. -/
theorem C109_mixture (x : CDict) (T : ℝ) (hx : Proper x) (hn : (x.map (·.1)).Nodup) (ha : ∀ e ∈ x, e.1 ≠ "Air".toList) (hT : ∀ e ∈ gases x, Covered e.1 T) :
    ∃ w z c : ℝ, wilke shippedGases (tx T x) = .ok (some w) ∧ 0 < w ∧ herningZipperer shippedGases (tx T x) = .ok (some z) ∧ 0 < z ∧
      idealCp shippedGases (tx T x) = .ok (some c) ∧ 0 < c ∧
      (∀ lo hi, (∀ e ∈ gases x, 0 < e.2 → ∀ m mu, IsGas e.1 m → Is m.mu T mu → lo ≤ mu ∧ mu ≤ hi) → lo ≤ z ∧ z ≤ hi) ∧
      (∀ lo hi, (∀ e ∈ gases x, 0 < e.2 → ∀ m cp, IsGas e.1 m → Is m.Cp T cp → lo ≤ cp ∧ cp ≤ hi) → lo ≤ c ∧ c ≤ hi) := by
  let mu : Str → ℝ := valueOf shippedGases.mu (.num T)
  let cp : Str → ℝ := valueOf shippedGases.cp (.num T)
  have hv : ∀ e ∈ gases x, (∃ m, IsGas e.1 m ∧ Is m.mu T (mu e.1) ∧ Is m.Cp T (cp e.1)) ∧ 0 < mu e.1 ∧ 0 < cp e.1 ∧ Pure shippedGases.mu T e.1 (mu e.1) ∧
      Pure shippedGases.cp T e.1 (cp e.1) := by
    intro e he
    obtain ⟨m, hm, a, b, h1, h2, h3, h4, h5, h6⟩ := shipped_pure (hT e he)
    have e1 : mu e.1 = a := valueOf_pure h5
    have e2 : cp e.1 = b := valueOf_pure h6
    rw [e1, e2]
    exact ⟨⟨m, hm, h1, h2⟩, h3, h4, h5, h6⟩
  have hmu : Values shippedGases.mu T mu x := fun e he => (hv e he).2.2.2.1
  have hcp : Values shippedGases.cp T cp x := fun e he => (hv e he).2.2.2.2
  have hM : Masses (fun c => match Stoich.molarMass c with | .ok w => w | .error _ => 0) x := by
    intro e he
    have hl : e.1 ∈ listed := by simpa using List.of_mem_filter he
    obtain ⟨w, -, hw⟩ := gas_mass e.1 hl (ha e (List.mem_of_mem_filter he))
    simp only [hw]
  obtain ⟨w, hw, w0, -⟩ := C80_wilke_bounds hx hn hM hmu (fun e he => (hv e he).2.1)
  obtain ⟨⟨z, hz⟩, c, hc⟩ := C80_defined hx ha hmu hcp
  have hzf := C80_herningZipperer hx hM hmu
  have hcf := C80_idealCp hx hM hcp
  rw [hz] at hzf
  rw [hc] at hcf
  have hzf := Option.some.inj (Except.ok.inj hzf)
  have hcf := Option.some.inj (Except.ok.inj hcf)
  have mp := mass_pos hM
  refine ⟨w, z, c, hw, w0, hz, ?_, hc, ?_, fun lo hi h => ?_, fun lo hi h => ?_⟩
  · rw [hzf]
    refine div_pos (weight_pos hx (u := fun c => Real.sqrt ((match Stoich.molarMass c with | .ok w => w | .error _ => 0 : ℚ) : ℝ) * mu c) fun e he => ?_)
      (weight_pos hx (u := fun c => Real.sqrt ((match Stoich.molarMass c with | .ok w => w | .error _ => 0 : ℚ) : ℝ)) fun e he => Real.sqrt_pos.2 (mp e he))
    exact mul_pos (Real.sqrt_pos.2 (mp e he)) (hv e he).2.1
  · rw [hcf]
    refine div_pos (weight_pos hx (u := fun c => ((match Stoich.molarMass c with | .ok w => w | .error _ => 0 : ℚ) : ℝ) * cp c) fun e he => ?_)
      (weight_pos hx (u := fun c => ((match Stoich.molarMass c with | .ok w => w | .error _ => 0 : ℚ) : ℝ)) fun e he => mp e he)
    exact mul_pos (mp e he) (hv e he).2.2.1
  · refine C80_bounds_viscosity hx hM hmu (fun e he h0 => ?_) hz
    obtain ⟨⟨m, hm, h1, -⟩, -⟩ := hv e he
    exact h e he h0 m _ hm h1
  · refine C80_bounds_heat_capacity hx hM hcp (fun e he h0 => ?_) hc
    obtain ⟨⟨m, hm, -, h1⟩, -⟩ := hv e he
    exact h e he h0 m _ hm h1

/-- A concrete case: a flue gas at 500 K. -/
example : ∃ w : ℝ, wilke shippedGases (tx 500 [("N2".toList, 0.7), ("CO2".toList, 0.2), ("H2O".toList, 0.1)]) = .ok (some w) ∧ 0 < w := by
  have hg : gases [("N2".toList, (0.7 : ℚ)), ("CO2".toList, 0.2), ("H2O".toList, 0.1)] = [("N2".toList, 0.7), ("CO2".toList, 0.2), ("H2O".toList, 0.1)] := by decide +kernel
  obtain ⟨w, z, c, h, h0, -⟩ := C109_mixture [("N2".toList, 0.7), ("CO2".toList, 0.2), ("H2O".toList, 0.1)] 500
    ⟨by norm_num, ("N2".toList, 0.7), by rw [hg]; simp, by norm_num⟩ (by decide +kernel) (by decide +kernel) (by
      rw [hg]
      simp only [List.mem_cons, List.not_mem_nil, or_false]
      rintro e (rfl | rfl | rfl)
      · exact ⟨100, 1600, by simp [gasRanges], by norm_num, by norm_num⟩
      · exact ⟨220, 600, by simp [gasRanges], by norm_num, by norm_num⟩
      · exact ⟨373.15, 1073.15, by simp [gasRanges], by norm_num, by norm_num⟩)
  exact ⟨w, h, h0⟩

/-! ## C110: how the properties change, and how they fit together -/

/-- **C110** (gases): over the range of the data, a hotter gas is more viscous, conducts better, is lighter, and has a larger kinematic viscosity. -/
theorem C110_gas_hotter (f : Str) (m : Mat) (hm : IsGas f m) (T₁ T₂ : ℝ) (h₁ : Covered f T₁) (h₂ : Covered f T₂) (hT : T₁ < T₂) {mu₁ mu₂ k₁ k₂ rho₁ rho₂ nu₁ nu₂ : ℝ}
    (a₁ : Is m.mu T₁ mu₁) (a₂ : Is m.mu T₂ mu₂) (b₁ : Is m.k T₁ k₁) (b₂ : Is m.k T₂ k₂) (c₁ : Is m.rho T₁ rho₁) (c₂ : Is m.rho T₂ rho₂)
    (d₁ : m.getNu (temp T₁) = .ok nu₁) (d₂ : m.getNu (temp T₂) = .ok nu₂) : mu₁ < mu₂ ∧ k₁ < k₂ ∧ rho₂ < rho₁ ∧ nu₁ < nu₂ := by
  obtain ⟨d, hd, rfl⟩ := hm
  have g₁ := gas_at hd h₁
  have g₂ := gas_at hd h₂
  obtain ⟨r1, r2, r3⟩ := gas_rise hd h₁ h₂ hT
  have e1 : mu₁ = eval d.mu.low T₁ := Except.ok.inj (a₁.symm.trans g₁.mu)
  have e2 : mu₂ = eval d.mu.low T₂ := Except.ok.inj (a₂.symm.trans g₂.mu)
  have e3 : k₁ = eval d.k.low T₁ := Except.ok.inj (b₁.symm.trans g₁.k)
  have e4 : k₂ = eval d.k.low T₂ := Except.ok.inj (b₂.symm.trans g₂.k)
  have hr := r3 _ _ c₁ c₂
  obtain ⟨r, hr1, hr0, -⟩ := g₁.rho
  have e5 : rho₁ = r := Except.ok.inj (c₁.symm.trans hr1)
  obtain ⟨r', hr1', hr0', -⟩ := g₂.rho
  have e6 : rho₂ = r' := Except.ok.inj (c₂.symm.trans hr1')
  rw [← e5] at hr0
  rw [← e6] at hr0'
  have e7 : nu₁ = mu₁ / rho₁ := Except.ok.inj (d₁.symm.trans (C93_nu rfl a₁ c₁ hr0.ne'))
  have e8 : nu₂ = mu₂ / rho₂ := Except.ok.inj (d₂.symm.trans (C93_nu rfl a₂ c₂ hr0'.ne'))
  have m0 : 0 < mu₁ := e1 ▸ g₁.mu0
  have hm : mu₁ < mu₂ := by rw [e1, e2]; exact r1
  refine ⟨hm, by rw [e3, e4]; exact r2, hr, ?_⟩
  rw [e7, e8]
  exact div_lt_div₀ hm hr.le (m0.trans hm).le hr0'

/-- **C110** (Prandtl number of gases): the heat capacity times the viscosity is between 0.66 and 1.03 times the conductivity. -/
theorem C110_prandtl (f : Str) (m : Mat) (hm : IsGas f m) (T : ℝ) (hT : Covered f T) {cp mu k : ℝ} (a : Is m.Cp T cp) (b : Is m.mu T mu) (c : Is m.k T k) :
    0.66 < cp * mu / k ∧ cp * mu / k < 1.03 := by
  obtain ⟨d, hd, rfl⟩ := hm
  have g := gas_at hd hT
  have e1 : cp = eval d.Cp.low T := Except.ok.inj (a.symm.trans g.cp)
  have e2 : mu = eval d.mu.low T := Except.ok.inj (b.symm.trans g.mu)
  have e3 : k = eval d.k.low T := Except.ok.inj (c.symm.trans g.k)
  rw [e1, e2, e3, lt_div_iff₀ g.k0, div_lt_iff₀ g.k0]
  exact ⟨g.pr1, g.pr2⟩

/-- **C110** (density of gases): within 3 % of the ideal gas law at atmospheric pressure, whichever model is used. -/
theorem C110_density (f : Str) (m : Mat) (hm : IsGas f m) (T : ℝ) (hT : Covered f T) {rho : ℝ} (a : Is m.rho T rho) :
    |rho / ((gasMass f : ℝ) / 1000 * 101325 / R / T) - 1| < 0.03 := by
  obtain ⟨d, hd, rfl⟩ := hm
  have g := gas_at hd hT
  obtain ⟨r, hr, -, h1, h2⟩ := g.rho
  have e : rho = r := Except.ok.inj (a.symm.trans hr)
  have R0 : (0 : ℝ) < R := by unfold R; norm_num
  have ms : (0 : ℝ) < (gasMass f : ℝ) := by exact_mod_cast g.mass
  have T0 := g.T0
  have p : 0 < (gasMass f : ℝ) / 1000 * 101325 / R / T := by positivity
  rw [e, abs_lt]
  constructor
  · rw [lt_sub_iff_add_lt, lt_div_iff₀ p]; norm_num at h1 ⊢; linarith
  · rw [sub_lt_iff_lt_add, div_lt_iff₀ p]; norm_num at h2 ⊢; linarith

/-- Concrete cases: ammonia, whose density is fitted, heated from 250 K to 400 K. -/
example : ∃ mu₁ mu₂ rho₁ : ℝ, Is (gasMat "NH3".toList dataNH3).mu 250 mu₁ ∧ Is (gasMat "NH3".toList dataNH3).mu 400 mu₂ ∧ mu₁ < mu₂ ∧
    |rho₁ / ((gasMass "NH3".toList : ℝ) / 1000 * 101325 / R / 250) - 1| < 0.03 := by
  have hm : IsGas "NH3".toList (gasMat "NH3".toList dataNH3) := ⟨dataNH3, by simp [gasData], rfl⟩
  have h1 : Covered "NH3".toList 250 := ⟨240, 473, by simp [gasRanges], by norm_num, by norm_num⟩
  have h2 : Covered "NH3".toList 400 := ⟨240, 473, by simp [gasRanges], by norm_num, by norm_num⟩
  obtain ⟨_, mu₁, _, rho₁, _, _, _, -, -, a1, -, a2, -, a3, -, -, -, a4, -⟩ := C109_gas _ _ hm _ h1
  obtain ⟨_, mu₂, _, _, _, _, _, -, -, b1, -, b2, -, b3, -, -, -, b4, -⟩ := C109_gas _ _ hm _ h2
  exact ⟨mu₁, mu₂, rho₁, a1, b1, (C110_gas_hotter _ _ hm 250 400 h1 h2 (by norm_num) a1 b1 a2 b2 a3 b3 a4 b4).1, C110_density _ _ hm _ h1 a3⟩

/-- **C110** (water): over the range of the data, hotter water is less viscous and expands more; from 276 K on it is lighter; up to 595 K its kinematic viscosity is smaller. -/
theorem C110_water_hotter_partial (T₁ T₂ : ℝ) (h₁ : WaterCovered T₁) (h₂ : WaterCovered T₂) (hT : T₁ < T₂) {mu₁ mu₂ beta₁ beta₂ rho₁ rho₂ nu₁ nu₂ : ℝ}
    (a₁ : Is water.mu T₁ mu₁) (a₂ : Is water.mu T₂ mu₂) (b₁ : Is water.beta T₁ beta₁) (b₂ : Is water.beta T₂ beta₂) (c₁ : Is water.rho T₁ rho₁) (c₂ : Is water.rho T₂ rho₂)
    (d₁ : Is water.nu T₁ nu₁) (d₂ : Is water.nu T₂ nu₂) : mu₂ < mu₁ ∧ beta₁ < beta₂ ∧ (276 ≤ T₁ → rho₂ < rho₁) ∧ (T₂ ≤ 595 → nu₂ < nu₁) := by
  obtain ⟨⟨-, -, v3, v4, v5, v6⟩, -⟩ := water_at h₁
  obtain ⟨⟨-, -, w3, w4, w5, w6⟩, -⟩ := water_at h₂
  have k := water_checked
  simp only [waterCheck, Bool.and_eq_true, decide_eq_true_eq, Prod.mk.injEq] at k
  obtain ⟨⟨⟨⟨⟨⟨⟨⟨-, g6⟩, g7⟩, -⟩, -⟩, g10⟩, g11⟩, -⟩, -⟩ := k
  have q0 : ((273.16 : ℚ) : ℝ) ≤ T₁ := by have := h₁.1; norm_num at this ⊢; linarith
  have q1 : T₂ ≤ ((620 : ℚ) : ℝ) := by have := h₂.2; norm_num at this ⊢; linarith
  have i1 := PolyPos.increases g6 (by norm_num) q0 hT q1
  have i2 := PolyPos.increases g7 (by norm_num) q0 hT q1
  rw [PolyPos.eval_smul, PolyPos.eval_smul] at i1
  push_cast at i1
  have e1 := Except.ok.inj (a₁.symm.trans v3)
  have e2 := Except.ok.inj (a₂.symm.trans w3)
  have e3 := Except.ok.inj (b₁.symm.trans v6)
  have e4 := Except.ok.inj (b₂.symm.trans w6)
  have e5 := Except.ok.inj (c₁.symm.trans v5)
  have e6 := Except.ok.inj (c₂.symm.trans w5)
  have e7 := Except.ok.inj (d₁.symm.trans v4)
  have e8 := Except.ok.inj (d₂.symm.trans w4)
  refine ⟨by rw [e1, e2]; linarith, by rw [e3, e4]; exact i2, fun h => ?_, fun h => ?_⟩
  · have := PolyPos.increases g10 (by norm_num) (by push_cast; exact h) hT q1
    rw [PolyPos.eval_smul, PolyPos.eval_smul] at this
    push_cast at this
    rw [e5, e6]; linarith
  · have := PolyPos.increases g11 (by norm_num) q0 hT (by push_cast; exact h)
    rw [PolyPos.eval_smul, PolyPos.eval_smul] at this
    push_cast at this
    rw [e7, e8]; linarith

/-- **C110** (water): the kinematic viscosity, which has a model of its own, is within 2.1 % of viscosity over density. -/
theorem C110_water_nu_partial (T : ℝ) (h : WaterCovered T) {mu rho nu : ℝ} (a : Is water.mu T mu) (b : Is water.rho T rho) (c : water.getNu (temp T) = .ok nu) :
    |nu / (mu / rho) - 1| < 0.021 := by
  obtain ⟨⟨-, -, v3, v4, v5, -⟩, ⟨-, -, p3, -, p5⟩, h1, h2⟩ := water_at h
  have e1 := Except.ok.inj (a.symm.trans v3)
  have e2 := Except.ok.inj (b.symm.trans v5)
  have e3 : nu = _ := Except.ok.inj (c.symm.trans v4)
  rw [div_div_eq_mul_div, e1, e2, e3, abs_lt]
  constructor
  · rw [lt_sub_iff_add_lt, lt_div_iff₀ p3]; norm_num at h1 ⊢; linarith
  · rw [sub_lt_iff_lt_add, div_lt_iff₀ p3]; norm_num at h2 ⊢; linarith

/-- The value of a polynomial at a rational number, calculated. -/
def evalQ (p : List ℚ) (x : ℚ) : ℚ := p.foldr (fun c a => c + x * a) 0

theorem evalQ_cast (p : List ℚ) (x : ℚ) : ((evalQ p x : ℚ) : ℝ) = eval p (x : ℝ) := by
  induction p with
  | nil => simp [evalQ, eval]
  | cons c p ih =>
    have : evalQ (c :: p) x = c + x * evalQ p x := rfl
    rw [this, eval, ← ih]; push_cast; ring

/-- **C110** (water, negative): the kinematic viscosity is not viscosity over density (at 613 K it is more than 2 % off); it rises from 600 K to 610 K; and at 276 K
thermal expansion is negative although the density falls as the temperature rises. -/
theorem C110_water_violated :
    (∃ mu rho nu : ℝ, Is water.mu 613 mu ∧ Is water.rho 613 rho ∧ water.getNu (temp 613) = .ok nu ∧ 0.02 < |nu / (mu / rho) - 1|) ∧
    (∃ nu₁ nu₂ : ℝ, water.getNu (temp 600) = .ok nu₁ ∧ water.getNu (temp 610) = .ok nu₂ ∧ nu₁ < nu₂) ∧
    ∃ beta rho₁ rho₂ : ℝ, Is water.beta 276 beta ∧ beta < 0 ∧ Is water.rho 276 rho₁ ∧ Is water.rho 277 rho₂ ∧ rho₂ < rho₁ := by
  have w613 := water_at (T := 613) ⟨by norm_num, by norm_num⟩
  have w600 := water_at (T := 600) ⟨by norm_num, by norm_num⟩
  have w610 := water_at (T := 610) ⟨by norm_num, by norm_num⟩
  have w276 := water_at (T := 276) ⟨by norm_num, by norm_num⟩
  have w277 := water_at (T := 277) ⟨by norm_num, by norm_num⟩
  have q : ∀ (d : DataPoly) (n : ℕ), eval d.low (n : ℝ) = ((evalQ d.low (n : ℚ) : ℚ) : ℝ) := fun d n => by rw [evalQ_cast]; norm_cast
  refine ⟨⟨_, _, _, w613.1.2.2.1, w613.1.2.2.2.2.1, w613.1.2.2.2.1, ?_⟩, ⟨_, _, w600.1.2.2.2.1, w610.1.2.2.2.1, ?_⟩,
    _, _, _, w276.1.2.2.2.2.2, ?_, w276.1.2.2.2.2.1, w277.1.2.2.2.2.1, ?_⟩
  · have h1 := q dataWater.mu 613
    have h2 := q dataWater.rho 613
    have h3 := q dataWater.nu 613
    norm_num only at h1 h2 h3
    rw [h1, h2, h3]
    have : (0.02 : ℚ) < |evalQ dataWater.nu.low 613 / (evalQ dataWater.mu.low 613 / evalQ dataWater.rho.low 613) - 1| := by decide +kernel
    have := (Rat.cast_lt (K := ℝ)).2 this
    push_cast at this
    exact this
  · have h1 := q dataWater.nu 600
    have h2 := q dataWater.nu 610
    norm_num only at h1 h2
    rw [h1, h2]
    exact (Rat.cast_lt (K := ℝ)).2 (by decide +kernel)
  · have h1 := q dataWater.beta 276
    norm_num only at h1
    rw [h1]
    exact_mod_cast (show evalQ dataWater.beta.low 276 < 0 by decide +kernel)
  · have h1 := q dataWater.rho 276
    have h2 := q dataWater.rho 277
    norm_num only at h1 h2
    rw [h1, h2]
    exact (Rat.cast_lt (K := ℝ)).2 (by decide +kernel)

end Auxi.Phys.Props
