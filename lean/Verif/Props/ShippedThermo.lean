import Verif.Proofs.ShippedThermo

/-! # C104–C106: the default thermochemical data -/
namespace Auxi.ThermoChem.Props
open Spec Set MeasureTheory intervalIntegral

theorem eval_data {db : List (Str × Compound)} {f ph : String} {c : Compound} {p : Phase} {r : CpRecord} (d : Data db f ph c p r)
    (q : Phase → ℝ → Res ℝ) {T v : ℝ} (hv : q p (T + 273.15) = .ok v) (m : ℝ) : evaluate q db (text f ph) T m = .ok (v / 3600000 / c.molarMass * m) := by
  unfold evaluate text
  rw [C73_text _ _ d.f1 d.f2 d.p1 d.p2]
  dsimp only
  rw [d.found]
  dsimp only [Compound.prop]
  rw [d.phase]
  dsimp only
  rw [hv]
  dsimp only
  unfold finalise
  rw [if_neg (ne_of_gt d.mass)]

theorem ships {db : List (Str × Compound)} (h : Loaded db) {f ph : String} (hs : Ships f ph) : ∃ c p r, Data db f ph c p r := by
  obtain ⟨c, d, hc, hp⟩ := hs
  obtain ⟨r, hr⟩ := ships_data h hc hp
  exact ⟨_, _, r, hr⟩

theorem good_pos {p : Phase} {r : CpRecord} (w : ∀ T : ℝ, 298.15 ≤ T → T ≤ 3000 → 0 < r.Cp T) {T : ℝ} (hT : 298.15 ≤ T) :
    0 < (if T < 3000 then r.Cp T else r.Cp 3000) := by
  split
  · exact w T hT (by linarith)
  · exact w 3000 (by norm_num) le_rfl

/-- The heat capacity function of such a phase. -/
noncomputable def cpFun (r : CpRecord) (T : ℝ) : ℝ := if T < 3000 then r.Cp T else r.Cp 3000

theorem cpFun_int {p : Phase} {r : CpRecord} (g : Good p r) {a b : ℝ} (ha : 0 < a) (hb : 0 < b) :
    IntervalIntegrable (cpFun r) volume a b ∧ IntervalIntegrable (fun x => cpFun r x / x) volume a b := by
  have e : cpOf [(3000, r)] = cpFun r := by funext x; unfold cpOf cpFun; rw [piece_single]
  have h1 := cpOf_integrable [(3000, r)] ha hb
  have h2 := cpTOf_integrable [(3000, r)] ha hb
  rw [e] at h1 h2
  exact ⟨h1, h2⟩

theorem good_H {p : Phase} {r : CpRecord} (g : Good p r) (w : ∀ T : ℝ, 298.15 ≤ T → T ≤ 3000 → 0 < r.Cp T) {a b : ℝ} (ha : 298.15 ≤ a) (hab : a < b) :
    ∃ x y, p.H a = .ok x ∧ p.H b = .ok y ∧ x < y := by
  obtain ⟨x, y, hx, hy, e⟩ := C70_enthalpy p _ _ g.covers (magOK g.mag) (cpFun r) (fun T _ => good_Cp g T) a b (by linarith) (by linarith) (Or.inl g.mag)
  refine ⟨x, y, hx, hy, ?_⟩
  have := intervalIntegral_pos_of_pos_on (cpFun_int g (by linarith : (0 : ℝ) < a) (by linarith : (0 : ℝ) < b)).1 (fun x hx => good_pos (p := p) w (by linarith [hx.1])) hab
  linarith

theorem good_S {p : Phase} {r : CpRecord} (g : Good p r) (w : ∀ T : ℝ, 298.15 ≤ T → T ≤ 3000 → 0 < r.Cp T) {a b : ℝ} (ha : 298.15 ≤ a) (hab : a < b) :
    ∃ x y, p.S a = .ok x ∧ p.S b = .ok y ∧ x < y := by
  obtain ⟨x, y, hx, hy, e⟩ := C70_entropy p _ _ g.covers (magOK g.mag) (cpFun r) (fun T _ => good_Cp g T) a b (by linarith) (by linarith) (Or.inl g.mag)
  refine ⟨x, y, hx, hy, ?_⟩
  have := intervalIntegral_pos_of_pos_on (cpFun_int g (by linarith : (0 : ℝ) < a) (by linarith : (0 : ℝ) < b)).2
    (fun x hx => div_pos (good_pos (p := p) w (by linarith [hx.1])) (by linarith [hx.1])) hab
  linarith

theorem good_S_pos {p : Phase} {r : CpRecord} (g : Good p r) (w : ∀ T : ℝ, 298.15 ≤ T → T ≤ 3000 → 0 < r.Cp T) {T : ℝ} (hT : 298.15 ≤ T) :
    ∃ x, p.S T = .ok x ∧ 0 < x := by
  have h0 := ((C76_reference p _ _ g.covers).2.2 g.mag).2
  rcases hT.eq_or_lt with rfl | h
  · exact ⟨_, h0, g.Sref⟩
  · obtain ⟨x, y, hx, hy, hxy⟩ := good_S g w le_rfl h
    rw [h0] at hx
    cases hx
    exact ⟨y, hy, g.Sref.trans hxy⟩

theorem good_G {p : Phase} {r : CpRecord} (g : Good p r) (w : ∀ T : ℝ, 298.15 ≤ T → T ≤ 3000 → 0 < r.Cp T) {a b : ℝ} (ha : 298.15 ≤ a) (hab : a < b) :
    ∃ x y, p.G a = .ok x ∧ p.G b = .ok y ∧ y < x := by
  have hne : p.records ≠ [] := by
    intro e
    have := g.covers.perm.length_eq
    rw [e] at this
    simp at this
  choose G hG using fun T => (C71_defined p T hne).2.2.1
  refine ⟨G a, G b, hG a, hG b, ?_⟩
  have hd : ∀ T, 298.15 ≤ T → ∃ s, 0 < s ∧ HasDerivAt G (-s) T := fun T hT => by
    obtain ⟨s, hs, hp⟩ := good_S_pos g w hT
    exact ⟨s, hp, C78_gibbs_slope p _ _ g.covers (magOK g.mag) G (fun T _ => hG T) T s (by linarith) hs (Or.inl g.mag)⟩
  refine (strictAntiOn_of_deriv_neg (convex_Ici (298.15 : ℝ)) (fun T hT => ?_) (fun T hT => ?_)) (mem_Ici.2 ha) (mem_Ici.2 (ha.trans hab.le)) hab
  · obtain ⟨s, _, h⟩ := hd T hT; exact h.continuousAt.continuousWithinAt
  · rw [interior_Ici] at hT
    obtain ⟨s, hp, h⟩ := hd T (le_of_lt hT)
    rw [h.deriv]
    linarith

/-! ## C104: heating needs energy -/

/-- **C104 (heat capacity, partial).** Every substance of the default data but two has a positive heat capacity at every temperature from 25 °C upwards. -/
theorem C104_heat_capacity_partial (db : List (Str × Compound)) (h : Loaded db) (f ph : String) (hs : Ships f ph) (ho : text f ph ∉ odd) (T m : ℝ)
    (hT : 25 ≤ T) (hm : 0 < m) : ∃ v, Cp db (text f ph) T m = .ok v ∧ 0 < v := by
  obtain ⟨c, p, r, d⟩ := ships h hs
  refine ⟨_, eval_data d Phase.Cp (good_Cp d.good _) m, ?_⟩
  have := good_pos (p := p) (d.warm ho) (T := T + 273.15) (by linarith)
  have := d.mass
  positivity

/-- **C104 (enthalpy and entropy, partial).** For every substance of the default data but two, from 25 °C upwards enthalpy and entropy strictly increase
with temperature, the entropy is positive and the Gibbs energy strictly decreases. -/
theorem C104_monotone_partial (db : List (Str × Compound)) (h : Loaded db) (f ph : String) (hs : Ships f ph) (ho : text f ph ∉ odd) (T₁ T₂ m : ℝ)
    (hT : 25 ≤ T₁) (h12 : T₁ < T₂) (hm : 0 < m) : ∃ H₁ H₂ S₁ S₂ : ℝ,
    H db (text f ph) T₁ m = .ok H₁ ∧ H db (text f ph) T₂ m = .ok H₂ ∧ H₁ < H₂ ∧
    S db (text f ph) T₁ m = .ok S₁ ∧ S db (text f ph) T₂ m = .ok S₂ ∧ 0 < S₁ ∧ S₁ < S₂ := by
  obtain ⟨c, p, r, d⟩ := ships h hs
  obtain ⟨x, y, hx, hy, hxy⟩ := good_H d.good (d.warm ho) (a := T₁ + 273.15) (b := T₂ + 273.15) (by linarith) (by linarith)
  obtain ⟨z, u, hz, hu, hzu⟩ := good_S d.good (d.warm ho) (a := T₁ + 273.15) (b := T₂ + 273.15) (by linarith) (by linarith)
  obtain ⟨z', hz', hp⟩ := good_S_pos d.good (d.warm ho) (T := T₁ + 273.15) (by linarith)
  rw [hz] at hz'
  cases hz'
  have hM := d.mass
  refine ⟨_, _, _, _, eval_data d Phase.H hx m, eval_data d Phase.H hy m, ?_, eval_data d Phase.S hz m, eval_data d Phase.S hu m, by positivity, ?_⟩
  · exact mul_lt_mul_of_pos_right (div_lt_div_of_pos_right (div_lt_div_of_pos_right hxy (by norm_num)) hM) hm
  · exact mul_lt_mul_of_pos_right (div_lt_div_of_pos_right (div_lt_div_of_pos_right hzu (by norm_num)) hM) hm

/-- **C104 (Gibbs energy, partial).** For every substance of the default data but two the Gibbs energy strictly decreases with temperature from 25 °C upwards. -/
theorem C104_gibbs_partial (db : List (Str × Compound)) (h : Loaded db) (f ph : String) (hs : Ships f ph) (ho : text f ph ∉ odd) (T₁ T₂ m : ℝ)
    (hT : 25 ≤ T₁) (h12 : T₁ < T₂) (hm : 0 < m) : ∃ G₁ G₂ : ℝ, G db (text f ph) T₁ m = .ok G₁ ∧ G db (text f ph) T₂ m = .ok G₂ ∧ G₂ < G₁ := by
  obtain ⟨c, p, r, d⟩ := ships h hs
  obtain ⟨x, y, hx, hy, hxy⟩ := good_G d.good (d.warm ho) (a := T₁ + 273.15) (b := T₂ + 273.15) (by linarith) (by linarith)
  have hM := d.mass
  refine ⟨_, _, eval_data d Phase.G hx m, eval_data d Phase.G hy m, ?_⟩
  exact mul_lt_mul_of_pos_right (div_lt_div_of_pos_right (div_lt_div_of_pos_right hxy (by norm_num)) hM) hm

theorem fe2o3 : Ships "Fe2O3" "Salpha" ∧ text "Fe2O3" "Salpha" ∉ odd := by
  refine ⟨⟨⟨798441 / 5000000, [("Salpha", ⟨-821319, 43723 / 500, [(3000, ⟨5963 / 20, 3000, [(49141 / 500, 0), (38911 / 500000, 1), (-1485300, -2)]⟩)]⟩)]⟩, _, ?_, List.mem_cons_self⟩, by decide +kernel⟩
  simp [shipped]

example : ∃ G₁ G₂ : ℝ, G shippedDb "Fe2O3[Salpha]".toList 100 1 = .ok G₁ ∧ G shippedDb "Fe2O3[Salpha]".toList 2000 1 = .ok G₂ ∧ G₂ < G₁ :=
  C104_gibbs_partial shippedDb (List.Perm.refl _) "Fe2O3" "Salpha" fe2o3.1 fe2o3.2 100 2000 1 (by norm_num) (by norm_num) (by norm_num)

/-- Monoclinic sulphur in the files. -/
def smono : DataPhase := ⟨335, 3297 / 100, [(3000, ⟨5963 / 20, 3000, [(34177 / 500, 0), (-23709 / 200000, 1)]⟩)]⟩
/-- Grey tin in the files: no term at all. -/
def sgray : DataPhase := ⟨-1967, 44141 / 1000, [(3000, ⟨5963 / 20, 3000, []⟩)]⟩

theorem smono_ships : ∃ c, ("S", c) ∈ shipped ∧ ("Smono", smono) ∈ c.phases := by
  simp [shipped, smono]
theorem sgray_ships : ∃ c, ("Sn", c) ∈ shipped ∧ ("Sgray", sgray) ∈ c.phases := by
  simp [shipped, sgray]

theorem smono_Cp (T : ℝ) : (DataRecord.record ⟨5963 / 20, 3000, [(34177 / 500, 0), (-23709 / 200000, 1)]⟩).Cp T = 68.354 - 0.118545 * T := by
  rw [Cp_sum]; simp [DataRecord.record]; ring

/-- **C104 is violated.** Whenever the default data are loaded: the heat capacity of monoclinic sulphur is negative at 400 °C and at every temperature above,
and grey tin has heat capacity zero at every temperature, so that heating it changes its enthalpy not at all. -/
theorem C104_violated (db : List (Str × Compound)) (h : Loaded db) :
    Ships "S" "Smono" ∧ (∀ T m : ℝ, 400 ≤ T → 0 < m → ∃ v, Cp db "S[Smono]".toList T m = .ok v ∧ v < 0) ∧
    Ships "Sn" "Sgray" ∧ (∀ T m : ℝ, 25 ≤ T → Cp db "Sn[Sgray]".toList T m = .ok 0) ∧
    ∀ T₁ T₂ m : ℝ, 25 ≤ T₁ → 25 ≤ T₂ → H db "Sn[Sgray]".toList T₁ m = H db "Sn[Sgray]".toList T₂ m := by
  obtain ⟨c, c1, c2⟩ := smono_ships
  obtain ⟨d, d1, d2⟩ := sgray_ships
  obtain ⟨r, hr⟩ := ships_data h c1 c2
  obtain ⟨s, hs⟩ := ships_data h d1 d2
  have er : r = DataRecord.record ⟨5963 / 20, 3000, [(34177 / 500, 0), (-23709 / 200000, 1)]⟩ := by
    have := hr.good.covers.perm
    unfold DataPhase.phase smono at this
    rw [List.map_cons, List.map_nil] at this
    have := List.singleton_perm_singleton.1 this
    exact (Prod.mk.inj this).2
  have es : s = DataRecord.record ⟨5963 / 20, 3000, []⟩ := by
    have := hs.good.covers.perm
    unfold DataPhase.phase sgray at this
    rw [List.map_cons, List.map_nil] at this
    have := List.singleton_perm_singleton.1 this
    exact (Prod.mk.inj this).2
  have s0 : ∀ x, s.Cp x = 0 := fun x => by rw [es]; simp [CpRecord.Cp, DataRecord.record]
  have sc : ∀ T : ℝ, sgray.phase.Cp T = .ok 0 := fun T => by rw [good_Cp hs.good, s0, s0, ite_self]
  refine ⟨⟨c, _, c1, c2⟩, fun T m hT hm => ⟨_, eval_data hr Phase.Cp (good_Cp hr.good _) m, ?_⟩, ⟨d, _, d1, d2⟩, fun T m _ => ?_, fun T₁ T₂ m h1 h2 => ?_⟩
  · have neg : (if T + 273.15 < 3000 then r.Cp (T + 273.15) else r.Cp 3000) < 0 := by
      rw [er, smono_Cp, smono_Cp]
      split <;> [linarith; norm_num]
    have := hr.mass
    rw [div_div]
    exact mul_neg_of_neg_of_pos (div_neg_of_neg_of_pos neg (by positivity)) hm
  · have := eval_data hs Phase.Cp (sc (T + 273.15)) m
    rw [zero_div, zero_div, zero_mul] at this
    exact this
  · obtain ⟨x, y, hx, hy, e⟩ := C70_enthalpy sgray.phase _ _ hs.good.covers (magOK hs.good.mag) (fun _ => 0) (fun T _ => sc T) (T₁ + 273.15) (T₂ + 273.15) (by linarith) (by linarith) (Or.inl hs.good.mag)
    rw [intervalIntegral.integral_zero] at e
    have exy : y = x := by linarith
    exact (eval_data hs Phase.H hx m).trans ((congrArg _ (by rw [exy])).trans (eval_data hs Phase.H hy m).symm)

/-! ## C105: molar masses -/

/-- The stored molar mass agrees with the formula. -/
def mmOK (c : String × DataCompound) : Bool :=
  match Stoich.molarMass c.1.toList with
  | .ok M => decide (0 < M ∧ |c.2.molarMass * 1000 - M| ≤ M / 1000000000000)
  | .error _ => false

theorem mm_checked : shipped.all mmOK = true := by decide +kernel

/-- **C105.** The molar mass stored with each compound of the default data is the molar mass of its formula, to twelve digits. -/
theorem C105_molar_mass (f : String) (c : DataCompound) (h : (f, c) ∈ shipped) : ∃ M : ℚ, Stoich.molarMass f.toList = .ok M ∧ 0 < M ∧
    |c.molarMass * 1000 - M| ≤ M / 1000000000000 := by
  have k := mm_checked
  rw [List.all_eq_true] at k
  have k := k _ h
  unfold mmOK at k
  dsimp only at k
  cases hM : Stoich.molarMass f.toList with
  | error e => rw [hM] at k; cases k
  | ok M => rw [hM] at k; exact ⟨M, rfl, of_decide_eq_true k⟩

/-- **C105 (one mole).** Asking for as many kilograms as the formula's molar mass gives the molar property of the phase in kWh, to about eleven digits. -/
theorem C105_one_mole (db : List (Str × Compound)) (h : Loaded db) (f : String) (c : DataCompound) (hc : (f, c) ∈ shipped) (ph : String) (d : DataPhase)
    (hp : (ph, d) ∈ c.phases) (T v : ℝ) (hv : d.phase.H (T + 273.15) = .ok v) : ∃ (M : ℚ) (w : ℝ), Stoich.molarMass f.toList = .ok M ∧
    H db (text f ph) T (M / 1000) = .ok w ∧ |w - v / 3600000| ≤ |v / 3600000| / 100000000000 := by
  obtain ⟨M, hM, h0, hd⟩ := C105_molar_mass f c hc
  obtain ⟨r, hr⟩ := ships_data h hc hp
  refine ⟨M, _, hM, eval_data hr Phase.H hv _, ?_⟩
  have hc0 := hr.mass
  have hcm : c.compound.molarMass = (c.molarMass : ℝ) := rfl
  rw [hcm] at hc0 ⊢
  have hd' : |(c.molarMass : ℝ) * 1000 - M| ≤ M / 1000000000000 := by exact_mod_cast hd
  have h0' : (0 : ℝ) < M := by exact_mod_cast h0
  have e : v / 3600000 / (c.molarMass : ℝ) * (M / 1000) - v / 3600000 = v / 3600000 * (((M : ℝ) - c.molarMass * 1000) / (c.molarMass * 1000)) := by
    field_simp
  rw [e, abs_mul, abs_div ((M : ℝ) - _), abs_of_pos (by positivity : (0:ℝ) < c.molarMass * 1000), div_eq_mul_inv |v / 3600000|]
  refine mul_le_mul_of_nonneg_left ?_ (abs_nonneg _)
  rw [div_le_iff₀ (by positivity), abs_sub_comm]
  have := abs_le.1 hd'
  linarith [this.1]

example : ∃ (M : ℚ) (w : ℝ), Stoich.molarMass "S".toList = .ok M ∧ H shippedDb "S[Smono]".toList 25 (M / 1000) = .ok w ∧
    |w - 335 / 3600000| ≤ |(335 : ℝ) / 3600000| / 100000000000 := by
  obtain ⟨c, c1, c2⟩ := smono_ships
  obtain ⟨r, hr⟩ := ships_data (List.Perm.refl shippedDb) c1 c2
  refine C105_one_mole shippedDb (List.Perm.refl _) "S" c c1 "Smono" smono c2 25 335 ?_
  have := ((C76_reference _ _ _ hr.good.covers).2.2 hr.good.mag).1
  rw [show (25 : ℝ) + 273.15 = 298.15 by norm_num, this]
  simp [DataPhase.phase, smono]

/-! ## C106: every substance of the files can be used through its text -/

/-- **C106.** In whatever order the files are read, every phase of every compound in them is found under `formula[phase]`; all four properties are defined
at every temperature above absolute zero; and at 25 °C enthalpy and entropy are the values in the file, converted to kWh and kg. -/
theorem C106_usable (db : List (Str × Compound)) (h : Loaded db) (f : String) (c : DataCompound) (hc : (f, c) ∈ shipped) (ph : String) (d : DataPhase)
    (hp : (ph, d) ∈ c.phases) (m : ℝ) :
    H db (text f ph) 25 m = .ok (d.DHref / 3600000 / c.molarMass * m) ∧ S db (text f ph) 25 m = .ok (d.Sref / 3600000 / c.molarMass * m) ∧
    ∀ T : ℝ, -273.15 < T → ∀ q ∈ [Cp db, H db, S db, G db], ∃ v, q (text f ph) T m = .ok v := by
  obtain ⟨r, hr⟩ := ships_data h hc hp
  have k := (C76_reference _ _ _ hr.good.covers).2.2 hr.good.mag
  have e : (25 : ℝ) + 273.15 = 298.15 := by norm_num
  refine ⟨eval_data hr Phase.H (e ▸ k.1) m, eval_data hr Phase.S (e ▸ k.2) m, fun T _ q hq => ?_⟩
  have hne : d.phase.records ≠ [] := by
    intro e
    have := hr.good.covers.perm.length_eq
    rw [e] at this
    simp at this
  obtain ⟨⟨a, ha⟩, ⟨b, hb⟩, ⟨g, hg⟩, ⟨cp, hcp⟩⟩ := C71_defined d.phase (T + 273.15) hne
  simp only [List.mem_cons, List.not_mem_nil, or_false] at hq
  rcases hq with rfl | rfl | rfl | rfl
  · exact ⟨_, eval_data hr Phase.Cp hcp m⟩
  · exact ⟨_, eval_data hr Phase.H ha m⟩
  · exact ⟨_, eval_data hr Phase.S hb m⟩
  · exact ⟨_, eval_data hr Phase.G hg m⟩

/-- **C106 (no clash).** No formula occurs twice in the files and no phase twice in a compound, so nothing is overwritten when they are loaded. -/
theorem C106_no_clash : (shipped.map (·.1)).Nodup ∧ ∀ c ∈ shipped, (c.2.phases.map (·.1)).Nodup := by
  refine ⟨formulas_nodup, fun c hc => ?_⟩
  have k := checked_true
  unfold checked at k
  rw [List.all_eq_true] at k
  have k1 := k _ hc
  simp only [Bool.and_eq_true] at k1
  exact of_decide_eq_true k1.1.2

/-- **C106 (order of files).** Two loads of the files in different orders give the same answers. -/
theorem C106_order (db db' : List (Str × Compound)) (h : Loaded db) (h' : Loaded db') (f ph : String) (hs : Ships f ph) (T m : ℝ) :
    Cp db (text f ph) T m = Cp db' (text f ph) T m ∧ H db (text f ph) T m = H db' (text f ph) T m ∧ S db (text f ph) T m = S db' (text f ph) T m ∧
    G db (text f ph) T m = G db' (text f ph) T m := by
  obtain ⟨c, d, hc, hp⟩ := hs
  obtain ⟨r, hr⟩ := ships_data h hc hp
  obtain ⟨r', hr'⟩ := ships_data h' hc hp
  have key : ∀ q, evaluate q db (text f ph) T m = evaluate q db' (text f ph) T m := fun q => by
    unfold evaluate text
    rw [C73_text _ _ hr.f1 hr.f2 hr.p1 hr.p2]
    dsimp only
    rw [hr.found, hr'.found]
  exact ⟨key _, key _, key _, key _⟩

example : ∃ M : ℝ, H shippedDb "S[Smono]".toList 25 1 = .ok (335 / 3600000 / M * 1) := by
  obtain ⟨c, c1, c2⟩ := smono_ships
  have k := (C106_usable shippedDb (List.Perm.refl _) "S" c c1 "Smono" smono c2 1).1
  exact ⟨c.molarMass, k.trans (by simp [smono])⟩

end Auxi.ThermoChem.Props
