import Verif.Props.ShippedThermo
import Verif.Props.ThermoMix
import Mathlib.Topology.Order.IntermediateValue

/-! # C107: packages of substances of the default data: one temperature for each enthalpy -/
namespace Auxi.Thermo.Props
open Auxi.Thermo Auxi.Thermo.Spec Auxi.ThermoChem Auxi.ThermoChem.Spec Auxi.ThermoChem.Props

/-- A material of substances of the default data, other than the two whose heat capacity is not positive. -/
def OfDefaults (m : Material) : Prop := ∀ c ∈ m.compounds, ∃ f ph, Ships f ph ∧ c = text f ph ∧ c ∉ odd

theorem known_of_defaults {db : Db} (h : Loaded db) {m : Material} (hm : OfDefaults m) : Known db m := by
  intro c hc
  obtain ⟨f, ph, ⟨dc, dp, h1, h2⟩, rfl, _⟩ := hm c hc
  exact ⟨_, (C106_usable db h f dc h1 ph dp h2 1).1⟩

/-- The specific enthalpy of a substance of the default data: increasing, continuous, unbounded. -/
theorem unitH_shape {db : Db} (h : Loaded db) {c : Str} (hc : ∃ f ph, Ships f ph ∧ c = text f ph ∧ c ∉ odd) :
    (∀ a b : ℝ, 25 ≤ a → a < b → unitH db c a < unitH db c b) ∧ ContinuousOn (unitH db c) (Set.Ici 25) ∧
    ∃ k y : ℝ, 0 < k ∧ ∀ T : ℝ, 3000 ≤ T → unitH db c T = y + k * T := by
  obtain ⟨f, ph, hs, rfl, ho⟩ := hc
  obtain ⟨co, p, r, d⟩ := ships h hs
  have hne : p.records ≠ [] := by
    intro e
    have := d.good.covers.perm.length_eq
    rw [e] at this
    simp at this
  choose Hp hHp using fun T => (C71_defined p T hne).1
  choose Sp hSp using fun T => (C71_defined p T hne).2.1
  choose Gp hGp using fun T => (C71_defined p T hne).2.2.1
  have eq : ∀ T, unitH db (text f ph) T = Hp (T + 273.15) / 3600000 / co.molarMass * 1 := fun T => by
    unfold unitH
    have := eval_data d Phase.H (hHp (T + 273.15)) 1
    change ThermoChem.H db (text f ph) T 1 = _ at this
    rw [this]
  have hM := d.mass
  refine ⟨fun a b ha hab => ?_, ?_, ?_⟩
  · obtain ⟨x, y, hx, hy, hxy⟩ := good_H d.good (d.warm ho) (a := a + 273.15) (b := b + 273.15) (by linarith) (by linarith)
    rw [hHp] at hx hy
    cases hx; cases hy
    rw [eq, eq]
    exact mul_lt_mul_of_pos_right (div_lt_div_of_pos_right (div_lt_div_of_pos_right hxy (by norm_num)) hM) one_pos
  · rw [show unitH db (text f ph) = fun T => Hp (T + 273.15) / 3600000 / co.molarMass * 1 from funext eq]
    intro T hT
    have hT : (25 : ℝ) ≤ T := hT
    have k := (C72_continuous p _ _ d.good.covers (magOK d.good.mag) Hp Sp Gp (fun T _ => hHp T) (fun T _ => hSp T) (fun T _ => hGp T) (T + 273.15) (by linarith)).1
    have k2 : ContinuousAt (fun T => Hp (T + 273.15)) T := ContinuousAt.comp (f := fun T : ℝ => T + 273.15) (x := T) k (by fun_prop)
    exact ((((k2.div_const _).div_const _).mul_const _)).continuousWithinAt
  · have hpos := d.warm ho 3000 (by norm_num) le_rfl
    refine ⟨r.Cp 3000 / 3600000 / co.molarMass, (Hp 3000 + r.Cp 3000 * (273.15 - 3000)) / 3600000 / co.molarMass, by positivity, fun T hT => ?_⟩
    obtain ⟨x, y, hx, hy, e⟩ := C70_enthalpy p _ _ d.good.covers (magOK d.good.mag) (cpFun r) (fun T _ => good_Cp d.good T) 3000 (T + 273.15) (by norm_num) (by linarith) (Or.inl d.good.mag)
    rw [hHp] at hx hy
    cases hx; cases hy
    have i : (∫ x in (3000 : ℝ)..(T + 273.15), cpFun r x) = r.Cp 3000 * (T + 273.15 - 3000) := by
      rw [intervalIntegral.integral_congr (g := fun _ => r.Cp 3000)]
      · rw [intervalIntegral.integral_const, smul_eq_mul, mul_comm]
      · intro x hx
        rw [Set.uIcc_of_le (by linarith)] at hx
        exact if_neg (not_lt.2 hx.1)
    rw [eq, show Hp (T + 273.15) = Hp 3000 + r.Cp 3000 * (T + 273.15 - 3000) by linarith]
    field_simp
    ring

theorem sum_lt {α : Type} {f g : α → ℝ} : ∀ {l : List α}, (∀ a ∈ l, f a ≤ g a) → (∃ a ∈ l, f a < g a) → (l.map f).sum < (l.map g).sum
  | [], _, ⟨_, h, _⟩ => by cases h
  | a :: l, h1, h2 => by
    rw [List.map_cons, List.map_cons, List.sum_cons, List.sum_cons]
    have hl : (l.map f).sum ≤ (l.map g).sum := List.sum_le_sum (fun b hb => h1 b (List.mem_cons_of_mem _ hb))
    obtain ⟨b, hb, hlt⟩ := h2
    rcases List.mem_cons.1 hb with rfl | hb
    · exact add_lt_add_of_lt_of_le hlt hl
    · exact add_lt_add_of_le_of_lt (h1 a List.mem_cons_self) (sum_lt (fun b hb => h1 b (List.mem_cons_of_mem _ hb)) ⟨b, hb, hlt⟩)

theorem some_content {p : Package} (hn : NonNeg p) (h : 0 < totalMass p) : ∃ c ∈ p.mat.compounds, 0 < content p c := by
  by_contra hx
  push Not at hx
  have : totalMass p ≤ (p.mat.compounds.map (fun _ => (0 : ℝ))).sum := List.sum_le_sum (fun c hc => hx c hc)
  simp at this
  linarith

/-- **C107 (monotone).** The enthalpy of a non-empty package of default substances strictly increases with temperature, from 25 °C upwards. -/
theorem C107_monotone (db : Db) (h : Loaded db) (p : Package) (hn : NonNeg p) (hm : OfDefaults p.mat) (hpos : 0 < totalMass p) (T₁ T₂ : ℝ) (h1 : 25 ≤ T₁)
    (h12 : T₁ < T₂) : enthalpyAt db p T₁ < enthalpyAt db p T₂ := by
  obtain ⟨c, hc, hp⟩ := some_content hn hpos
  refine sum_lt (fun d hd => ?_) ⟨c, hc, ?_⟩
  · exact mul_le_mul_of_nonneg_left ((unitH_shape h (hm d hd)).1 _ _ h1 h12).le (hn d)
  · exact mul_lt_mul_of_pos_left ((unitH_shape h (hm c hc)).1 _ _ h1 h12) hp

theorem enthalpy_continuous {db : Db} (h : Loaded db) {p : Package} (hm : OfDefaults p.mat) : ContinuousOn (enthalpyAt db p) (Set.Ici 25) := by
  unfold enthalpyAt
  have key : ∀ l : List Str, (∀ c ∈ l, c ∈ p.mat.compounds) → ContinuousOn (fun T => (l.map (fun c => content p c * unitH db c T)).sum) (Set.Ici 25) := by
    intro l
    induction l with
    | nil => intro _; exact continuousOn_const
    | cons c l ih =>
      intro hl
      have := ((continuousOn_const (c := content p c)).mul (unitH_shape h (hm c (hl c List.mem_cons_self))).2.1).add (ih (fun d hd => hl d (List.mem_cons_of_mem _ hd)))
      refine this.congr (fun T _ => ?_)
      rw [List.map_cons, List.sum_cons]
      rfl
  exact key _ (fun _ h => h)

theorem enthalpy_linear {db : Db} (h : Loaded db) {p : Package} (hm : OfDefaults p.mat) : ∃ k y : ℝ, ∀ T : ℝ, 3000 ≤ T → enthalpyAt db p T = y + k * T := by
  unfold enthalpyAt
  have key : ∀ l : List Str, (∀ c ∈ l, c ∈ p.mat.compounds) → ∃ k y : ℝ, ∀ T : ℝ, 3000 ≤ T → (l.map (fun c => content p c * unitH db c T)).sum = y + k * T := by
    intro l
    induction l with
    | nil => intro _; exact ⟨0, 0, fun T _ => by simp⟩
    | cons c l ih =>
      intro hl
      obtain ⟨k, y, hky⟩ := ih (fun d hd => hl d (List.mem_cons_of_mem _ hd))
      obtain ⟨k', y', _, hky'⟩ := (unitH_shape h (hm c (hl c List.mem_cons_self))).2.2
      refine ⟨content p c * k' + k, content p c * y' + y, fun T hT => ?_⟩
      rw [List.map_cons, List.sum_cons, hky T hT, hky' T hT]
      ring
  exact key _ (fun _ h => h)

/-- **C107 (one temperature).** For a non-empty package of default substances, every enthalpy of at least that at 25 °C is the enthalpy of the contents at
exactly one temperature of at least 25 °C. -/
theorem C107_temperature (db : Db) (h : Loaded db) (p : Package) (hn : NonNeg p) (hm : OfDefaults p.mat) (hpos : 0 < totalMass p) (x : ℝ)
    (hx : enthalpyAt db p 25 ≤ x) : ∃! T : ℝ, 25 ≤ T ∧ enthalpyAt db p T = x := by
  have mono := C107_monotone db h p hn hm hpos
  obtain ⟨k, y, hky⟩ := enthalpy_linear h hm
  have hk : 0 < k := by
    have := mono 3000 3001 (by norm_num) (by norm_num)
    rw [hky 3000 le_rfl, hky 3001 (by norm_num)] at this
    linarith
  obtain ⟨b, hb1, hb2⟩ : ∃ b, 3000 ≤ b ∧ x ≤ enthalpyAt db p b := by
    refine ⟨max 3000 ((x - y) / k), le_max_left _ _, ?_⟩
    rw [hky _ (le_max_left _ _)]
    have : k * ((x - y) / k) = x - y := by field_simp
    have := mul_le_mul_of_nonneg_left (le_max_right 3000 ((x - y) / k)) hk.le
    linarith
  obtain ⟨T, ⟨hT1, _⟩, hT⟩ := intermediate_value_Icc (show (25 : ℝ) ≤ b by linarith) ((enthalpy_continuous h hm).mono Set.Icc_subset_Ici_self) ⟨hx, hb2⟩
  refine ⟨T, ⟨hT1, hT⟩, fun U hU => ?_⟩
  rcases lt_trichotomy U T with l | e | l
  · have := mono U T hU.1 l; rw [hU.2, hT] at this; exact absurd this (lt_irrefl _)
  · exact e
  · have := mono T U hT1 l; rw [hU.2, hT] at this; exact absurd this (lt_irrefl _)

/-- **C107 (setting).** Setting the enthalpy of the contents at the current temperature leaves a package of default substances as it is. -/
theorem C107_set_same (db : Db) (h : Loaded db) (p : Package) (hp : Sound p) (hn : NonNeg p) (hm : OfDefaults p.mat) (hpos : 0 < totalMass p) (t : ℝ)
    (ht : p.T = some t) (h25 : 25 ≤ t) : p.setH db (some (enthalpyAt db p t)) = (.ok (), { p with H := some (enthalpyAt db p t) }) :=
  C63_package_keeps db p hp (known_of_defaults h hm) t ht (ne_of_gt (C107_monotone db h p hn hm hpos t (t + 10) h25 (by linarith)))

/-- **C107 (mixing).** When two packages of one material of default substances, each with the enthalpy of its contents at its temperature, are added, and the
sum has a temperature of at least 25 °C and the enthalpy of its contents at that temperature, then this temperature lies between those of the parts. -/
theorem C107_between (db : Db) (h : Loaded db) (p q r : Package) (hp : Sound p) (hq : Sound q) (hmat : q.mat = p.mat) (hn : NonNeg p) (hn' : NonNeg q)
    (hm : OfDefaults p.mat) (hpos : 0 < totalMass p) (hpos' : 0 < totalMass q) (a b t : ℝ) (ha : p.T = some a) (hb : q.T = some b) (hab : a ≤ b) (h25 : 25 ≤ a)
    (hcp : Consistent db p) (hcq : Consistent db q) (hr : p.add db (.pkg q) = .ok r) (ht : r.T = some t) (ht25 : 25 ≤ t) (hcr : Consistent db r) : a ≤ t ∧ t ≤ b := by
  obtain ⟨r', hr', m1, m2, m3, _⟩ := C60_same db p q hp hq hmat (known_of_defaults h hm)
  rw [hr] at hr'
  cases hr'
  obtain ⟨_, e, Hp⟩ := hcp
  rw [ha] at e; cases e
  obtain ⟨_, e, Hq⟩ := hcq
  rw [hb] at e; cases e
  obtain ⟨_, e, Hr⟩ := hcr
  rw [ht] at e; cases e
  have Hs := m3 _ _ Hp Hq
  rw [Hr] at Hs
  have Hs : enthalpyAt db r t = enthalpyAt db p a + enthalpyAt db q b := Option.some.inj Hs
  have add : ∀ x, enthalpyAt db r x = enthalpyAt db p x + enthalpyAt db q x := fun x => by
    unfold enthalpyAt
    rw [m1, hmat, ← List.sum_map_add]
    exact congrArg List.sum (List.map_congr_left (fun c _ => by rw [m2]; ring))
  rw [add] at Hs
  have M1 := C107_monotone db h p hn hm hpos
  have M2 := C107_monotone db h q hn' (hmat ▸ hm) hpos'
  constructor
  · by_contra hlt
    push Not at hlt
    have := M1 t a ht25 hlt
    have := M2 t b ht25 (hlt.trans_le hab)
    linarith
  · by_contra hlt
    push Not at hlt
    have := M1 a t h25 (lt_of_le_of_lt hab hlt)
    have := M2 b t (h25.trans hab) hlt
    linarith

/-! ## Non-vacuity -/

/-- A material of haematite and liquid silver. -/
def mFA : Material := ⟨7, [text "Fe2O3" "Salpha", text "Ag" "L"], [], [], [], []⟩
/-- Two kilograms of haematite and one of silver. -/
noncomputable def pFA (t : ℝ) : Package := ⟨mFA, [some 2, some 1], some 1, some t, some 0, false, none⟩

/-- Liquid silver in the files. -/
def agL : DataPhase := ⟨8936, 47187 / 1000, [(3000, ⟨5963 / 20, 3000, [(30543 / 1000, 0)]⟩)]⟩
theorem agL_ships : ∃ c, ("Ag", c) ∈ shipped ∧ ("L", agL) ∈ c.phases := by simp [shipped, agL]

theorem mFA_defaults : OfDefaults mFA := by
  intro c hc
  simp only [mFA, List.mem_cons, List.not_mem_nil, or_false] at hc
  rcases hc with rfl | rfl
  · exact ⟨_, _, fe2o3.1, rfl, fe2o3.2⟩
  · obtain ⟨c, h1, h2⟩ := agL_ships
    exact ⟨_, _, ⟨c, _, h1, h2⟩, rfl, by decide +kernel⟩

theorem pFA_sound (t : ℝ) : Sound (pFA t) := ⟨by simp [pFA, mFA], by simp only [pFA, mFA]; decide +kernel, ⟨[2, 1], rfl, rfl⟩, ⟨t, rfl⟩, rfl⟩
theorem pFA_content (t : ℝ) : content (pFA t) (text "Fe2O3" "Salpha") = 2 ∧ content (pFA t) (text "Ag" "L") = 1 := by
  unfold content Package.compoundMass
  rw [if_pos (by simp [pFA, mFA]), if_pos (by simp [pFA, mFA])]
  constructor <;> rfl
theorem pFA_nonneg (t : ℝ) : NonNeg (pFA t) := by
  intro c
  by_cases hc : c ∈ (pFA t).mat.compounds
  · simp only [pFA, mFA, List.mem_cons, List.not_mem_nil, or_false] at hc
    rcases hc with rfl | rfl
    · rw [(pFA_content t).1]; norm_num
    · rw [(pFA_content t).2]; norm_num
  · rw [content_absent hc]
theorem pFA_mass (t : ℝ) : 0 < totalMass (pFA t) := by
  change 0 < ([content (pFA t) (text "Fe2O3" "Salpha"), content (pFA t) (text "Ag" "L")].sum)
  rw [(pFA_content t).1, (pFA_content t).2]; norm_num

example : ∃! T : ℝ, 25 ≤ T ∧ enthalpyAt shippedDb (pFA 25) T = enthalpyAt shippedDb (pFA 25) 500 + 1 := by
  refine C107_temperature shippedDb (List.Perm.refl _) (pFA 25) (pFA_nonneg _) mFA_defaults (pFA_mass _) _ ?_
  have := C107_monotone shippedDb (List.Perm.refl _) (pFA 25) (pFA_nonneg _) mFA_defaults (pFA_mass _) 25 500 le_rfl (by norm_num)
  linarith
example : (pFA 800).setH shippedDb (some (enthalpyAt shippedDb (pFA 800) 800)) = (.ok (), { pFA 800 with H := some (enthalpyAt shippedDb (pFA 800) 800) }) :=
  C107_set_same shippedDb (List.Perm.refl _) (pFA 800) (pFA_sound _) (pFA_nonneg _) mFA_defaults (pFA_mass _) 800 rfl (by norm_num)

/-- A material of liquid silver alone, whose heat capacity is constant in the files. -/
def mAg : Material := ⟨8, [text "Ag" "L"], [], [], [], []⟩
/-- One kilogram of it, with the enthalpy that belongs to its temperature. -/
noncomputable def pAg (t : ℝ) : Package := ⟨mAg, [some 1], some 1, some t, some (unitH shippedDb (text "Ag" "L") t), false, none⟩

theorem mAg_defaults : OfDefaults mAg := fun c hc => by
  simp only [mAg, List.mem_singleton] at hc; exact hc ▸ mFA_defaults _ (by simp [mFA])
theorem pAg_sound (t : ℝ) : Sound (pAg t) := ⟨by simp [pAg, mAg], by simp [pAg, mAg], ⟨[1], rfl, rfl⟩, ⟨t, rfl⟩, rfl⟩
theorem pAg_content (t : ℝ) : content (pAg t) (text "Ag" "L") = 1 := by
  unfold content Package.compoundMass
  rw [if_pos (by simp [pAg, mAg])]; rfl
theorem pAg_good (t : ℝ) : Good shippedDb (pAg t) := by
  refine ⟨pAg_sound t, fun c => ?_, ⟨t, rfl, ?_⟩, known_of_defaults (List.Perm.refl _) mAg_defaults⟩
  · by_cases hc : c ∈ (pAg t).mat.compounds
    · simp only [pAg, mAg, List.mem_singleton] at hc
      subst hc; rw [pAg_content]; norm_num
    · rw [content_absent hc]
  · change some (unitH shippedDb (text "Ag" "L") t) = some ([content (pAg t) (text "Ag" "L") * unitH shippedDb (text "Ag" "L") t].sum)
    rw [pAg_content]; simp
theorem pAg_mass (t : ℝ) : totalMass (pAg t) = 1 := by
  change ([content (pAg t) (text "Ag" "L")].sum) = _
  rw [pAg_content]; simp

theorem agL_H (T : ℝ) : agL.phase.H T = .ok (8936 + 30.543 * (T - 298.15)) := by
  have : agL.phase = ⟨8936, 47187 / 1000, [(3000, ⟨298.15, 3000, [(30.543, 0)]⟩)], none⟩ := by
    simp only [DataPhase.phase, agL, DataRecord.record, List.map_cons, List.map_nil]; norm_num
  rw [this]
  exact flat_H 30.543 8936 T

theorem mAg_steady : Steady shippedDb mAg := by
  intro c hc
  simp only [mAg, List.mem_singleton] at hc
  subst hc
  obtain ⟨c, h1, h2⟩ := agL_ships
  obtain ⟨r, d⟩ := ships_data (List.Perm.refl shippedDb) h1 h2
  have hM := d.mass
  refine ⟨30.543 / 3600000 / c.compound.molarMass, (8936 + 30.543 * (273.15 - 298.15)) / 3600000 / c.compound.molarMass, by positivity, fun x => ?_⟩
  unfold unitH
  have := eval_data d Phase.H (agL_H (x + 273.15)) 1
  change ThermoChem.H shippedDb (text "Ag" "L") x 1 = _ at this
  rw [this]
  dsimp only
  field_simp
  ring

/-- Liquid silver at 1200 °C and at 1000 °C, mixed: the premises of `C107_between` are met. -/
example : ∃ r t, (pAg 1000).add shippedDb (.pkg (pAg 1200)) = .ok r ∧ r.T = some t ∧ Consistent shippedDb r ∧ 1000 ≤ t ∧ t ≤ 1200 := by
  have m0 : ∀ t, 0 < totalMass (pAg t) := fun t => by rw [pAg_mass]; exact one_pos
  obtain ⟨r, t, h1, h2, _, h3, _⟩ := C63_mixture shippedDb (pAg 1000) (pAg 1200) (pAg_good _) (pAg_good _) rfl mAg_steady (m0 _) (m0 _) 1000 1200 rfl rfl
  have g := (C62_mix shippedDb (pAg 1000) (pAg 1200) (pAg_good _) (pAg_good _) (Or.inl rfl) mAg_steady (add_pos (m0 _) (m0 _)) r h1).1
  rw [min_eq_left (by norm_num)] at h3
  exact ⟨r, t, h1, h2, g.consistent, C107_between shippedDb (List.Perm.refl _) (pAg 1000) (pAg 1200) r (pAg_sound _) (pAg_sound _) rfl (pAg_good _).nonneg (pAg_good _).nonneg
    mAg_defaults (m0 _) (m0 _) 1000 1200 t rfl rfl (by norm_num) (by norm_num) (pAg_good _).consistent (pAg_good _).consistent h1 h2 (by linarith) g.consistent⟩

end Auxi.Thermo.Props
