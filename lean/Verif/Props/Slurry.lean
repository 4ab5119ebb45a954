import Verif.Props.Psd

/-!
# Properties of slurry packages
-/
namespace Auxi.Slurry.Props
open Psd (F64 Arg AssayArg lift)
open Spec

/-! ## Concrete materials for the examples -/

/-- A slurry material. -/
def matA : Material := ⟨Psd.Props.matA, [("Feed".toList, 3), ("Zero".toList, 2), ("Odd".toList, 1)], [("Feed".toList, 1/2), ("Zero".toList, 1/4), ("Odd".toList, 1)]⟩
/-- Another one. -/
def matB : Material := ⟨Psd.Props.matB, [("Feed".toList, 4)], [("Feed".toList, 0)]⟩
/-- A package of seven units of solids of density two and three units of water. -/
def pkgA : Package := ⟨matA, .fin 2, .fin 3, lift [4, 2, 1]⟩
/-- A second package of the same material. -/
def pkgA' : Package := ⟨matA, .fin 4, .fin 1, lift [0, 2, 2]⟩
/-- A package of the other material. -/
def pkgB : Package := ⟨matB, .fin 5, .fin 1, lift [5, 15]⟩
/-- Water. -/
def water1 : Package := ⟨matA, .fin 1, .fin 3, lift [0, 0, 0]⟩

theorem pkgA_ok : OK pkgA := ⟨Psd.finite_iff.2 ⟨_, rfl⟩, rfl, by unfold Psd.Spec.Distinct; decide +kernel, ⟨_, rfl⟩, _, rfl, by decide +kernel⟩
theorem pkgA'_ok : OK pkgA' := ⟨Psd.finite_iff.2 ⟨_, rfl⟩, rfl, by unfold Psd.Spec.Distinct; decide +kernel, ⟨_, rfl⟩, _, rfl, by decide +kernel⟩
theorem pkgB_ok : OK pkgB := ⟨Psd.finite_iff.2 ⟨_, rfl⟩, rfl, by unfold Psd.Spec.Distinct; decide +kernel, ⟨_, rfl⟩, _, rfl, by decide +kernel⟩
theorem water1_ok : OK water1 := ⟨Psd.finite_iff.2 ⟨_, rfl⟩, rfl, by unfold Psd.Spec.Distinct; decide +kernel, ⟨_, rfl⟩, _, rfl, by decide +kernel⟩

/-! ## Lemmas -/

theorem solidMass_eq {p : Package} (h : OK p) : p.solidMass = .fin (solid p) := Psd.mass_eq h.finite h.distinct h.shape

theorem water_eq {p : Package} (h : OK p) : p.water = .fin (water p) := by
  obtain ⟨w, hw⟩ := h.water
  simp [Spec.water, hw]

theorem mass_eq {p : Package} (h : OK p) : p.mass = .fin (solid p + water p) := by
  have := solidMass_eq h
  unfold Package.solidMass at this
  rw [Package.mass, this, water_eq h]; rfl

/-! ## C57: what is reported -/

/-- **C57 (mass).** The mass is that of the size classes and the water. -/
theorem C57_mass (p : Package) (h : OK p) : p.mass = .fin ((p.mat.psd.classes.map (content p)).sum + water p) := mass_eq h

/-- **C57 (volume).** The reported volume is that of the water plus that of the solids. -/
theorem C57_volume (p : Package) (h : OK p) : p.volume = .fin (volume p) ∧ ∀ d, p.density = .fin d → volume p = water p + (p.mat.psd.classes.map (content p)).sum / d := by
  obtain ⟨d, hd, h0⟩ := h.density
  constructor
  · simp [Package.volume, solidMass_eq h, water_eq h, hd, F64.div, h0.ne', F64.add, Spec.volume]
  · intro d' hd'
    rw [hd] at hd'
    cases hd'
    simp only [Spec.volume, hd]
    rfl

example : pkgA.volume = .fin (13/2) ∧ pkgA.mass = .fin 10 ∧ pkgA.massFractionSolids = .fin (7/10) ∧ pkgA.volumeFractionSolids = .fin (7/13) := by decide +kernel

/-- **C57 (fractions).** For a package with nonnegative contents and positive mass, the mass and volume fractions of solids lie between zero and one, are
those of the solids, and the slurry density lies between the densities of water and solids. -/
theorem C57_fractions (p : Package) (h : OK p) (hs : 0 ≤ solid p) (hw : 0 ≤ water p) (hm : 0 < solid p + water p) :
    (∃ f, p.massFractionSolids = .fin f ∧ 0 ≤ f ∧ f ≤ 1 ∧ f * (solid p + water p) = solid p) ∧
    (∃ f, p.volumeFractionSolids = .fin f ∧ 0 ≤ f ∧ f ≤ 1 ∧ f * volume p = volume p - water p) ∧
    (∃ r d, p.slurryDensity = .fin r ∧ p.density = .fin d ∧ min 1 d ≤ r ∧ r ≤ max 1 d) := by
  obtain ⟨d, hd, h0⟩ := h.density
  have hV : volume p = water p + solid p / d := by simp only [Spec.volume, hd]
  have hsd : 0 ≤ solid p / d := div_nonneg hs h0.le
  have hVpos : 0 < volume p := by
    rw [hV]
    rcases hw.lt_or_eq with h1 | h1
    · linarith
    · have : 0 < solid p := by linarith
      have : 0 < solid p / d := div_pos this h0
      linarith
  have hvol := (C57_volume p h).1
  refine ⟨⟨solid p / (solid p + water p), ?_, div_nonneg hs hm.le, ?_, by field_simp⟩, ⟨1 - water p / volume p, ?_, ?_, ?_, ?_⟩,
    ⟨(solid p + water p) / volume p, d, ?_, hd, ?_, ?_⟩⟩
  · simp [Package.massFractionSolids, solidMass_eq h, mass_eq h, F64.div, hm.ne']
  · rw [div_le_one hm]; linarith
  · simp [Package.volumeFractionSolids, water_eq h, hvol, F64.div, hVpos.ne', F64.sub, F64.neg, F64.add, sub_eq_add_neg]
  · have : water p / volume p ≤ 1 := by rw [div_le_one hVpos, hV]; linarith
    linarith
  · have : 0 ≤ water p / volume p := div_nonneg hw hVpos.le
    linarith
  · field_simp
  · simp [Package.slurryDensity, mass_eq h, hvol, F64.div, hVpos.ne']
  · rw [le_div_iff₀ hVpos, hV]
    have e : solid p = d * (solid p / d) := by field_simp
    rcases min_choice 1 d with hmin | hmin
    · have : (1 : ℚ) ≤ d := by rw [← hmin]; exact min_le_right 1 d
      rw [hmin]
      nlinarith
    · have : d ≤ (1 : ℚ) := by rw [← hmin]; exact min_le_left 1 d
      rw [hmin]
      nlinarith
  · rw [div_le_iff₀ hVpos, hV]
    have e : solid p = d * (solid p / d) := by field_simp
    rcases max_choice 1 d with hmax | hmax
    · have : d ≤ (1 : ℚ) := by rw [← hmax]; exact le_max_right 1 d
      rw [hmax]
      nlinarith
    · have : (1 : ℚ) ≤ d := by rw [← hmax]; exact le_max_left 1 d
      rw [hmax]
      nlinarith

/-! ## C57: mixing -/

/-- **C57 (mixing).** Adding packages with solids conserves every size class, the water and the volume, and the result is a healthy package. -/
theorem C57_mix (p q r : Package) (hp : OK p) (hq : OK q) (hid : p.mat.psd.ident = q.mat.psd.ident → p.mat = q.mat)
    (h1 : 0 ≤ solid p) (h2 : 0 ≤ solid q) (h3 : 0 < solid p + solid q) (hr : p.add (.pkg q) = .ok r) :
    r.mat = p.mat ∧ OK r ∧ (∀ c, content r c = content p c + content q c) ∧ water r = water p + water q ∧ solid r = solid p + solid q ∧
      volume r = volume p + volume q ∧ r.volume = .fin (volume p + volume q) := by
  obtain ⟨d, hd, hd0⟩ := hp.density
  obtain ⟨e, he, he0⟩ := hq.density
  have hvp : volume p = water p + solid p / d := by simp only [Spec.volume, hd]
  have hvq : volume q = water q + solid q / e := by simp only [Spec.volume, he]
  have hden : 0 < solid p / d + solid q / e := by
    rcases h1.lt_or_eq with h | h
    · have := div_pos h hd0
      have := div_nonneg h2 he0.le
      linarith
    · have hq' : 0 < solid q := by linarith
      have := div_pos hq' he0
      have := div_nonneg h1 hd0.le
      linarith
  simp only [Package.add] at hr
  split at hr
  · cases hr
  · rename_i s hs
    have hdens : ((p.solidMass.add q.solidMass).div ((p.solidMass.div p.density).add (q.solidMass.div q.density))) =
        .fin ((solid p + solid q) / (solid p / d + solid q / e)) := by
      simp [solidMass_eq hp, solidMass_eq hq, hd, he, F64.add, F64.div, hd0.ne', he0.ne', hden.ne']
    have hw : p.water.add q.water = .fin (water p + water q) := by rw [water_eq hp, water_eq hq]; rfl
    rw [hdens, hw] at hr
    cases hr
    -- the solids
    have key : s.mat = p.solids.mat ∧ Psd.Spec.Finite s ∧ Psd.Spec.Shape s ∧
        (∀ c, Psd.Spec.content s c = Psd.Spec.content p.solids c + Psd.Spec.content q.solids c) ∧
        s.mass = .fin (Psd.Spec.total p.solids + Psd.Spec.total q.solids) := by
      by_cases hi : p.mat.psd.ident = q.mat.psd.ident
      · obtain ⟨r', hr', a⟩ := Psd.Props.C56_add_same p.solids q.solids (by unfold Package.solids; dsimp only; rw [hid hi]) hp.finite hq.finite hp.shape hq.shape hp.distinct
        rw [hr'] at hs
        cases hs
        exact a
      · exact Psd.Props.C56_add_other p.solids q.solids s hi hp.finite hq.finite hp.shape hq.shape hp.distinct hq.distinct hs
    obtain ⟨k1, k2, k3, k4, k5⟩ := key
    have hsol : (⟨p.mat, .fin ((solid p + solid q) / (solid p / d + solid q / e)), .fin (water p + water q), s.masses⟩ : Package).solids = s := by
      obtain ⟨sm, sl⟩ := s
      dsimp only at k1
      subst k1
      rfl
    have hOK : OK ⟨p.mat, .fin ((solid p + solid q) / (solid p / d + solid q / e)), .fin (water p + water q), s.masses⟩ :=
      ⟨by rw [hsol]; exact k2, by rw [hsol]; exact k3, hp.distinct, ⟨_, rfl⟩, _, rfl, div_pos h3 hden⟩
    have hsolid : solid ⟨p.mat, .fin ((solid p + solid q) / (solid p / d + solid q / e)), .fin (water p + water q), s.masses⟩ = solid p + solid q := by
      change Psd.Spec.total (Package.solids _) = _
      rw [hsol]
      have := Psd.mass_eq k2 (by rw [k1]; exact hp.distinct) k3
      rw [k5] at this
      exact (F64.fin.inj this).symm
    have hvol : volume ⟨p.mat, .fin ((solid p + solid q) / (solid p / d + solid q / e)), .fin (water p + water q), s.masses⟩ = volume p + volume q := by
      rw [hvp, hvq]
      have : volume ⟨p.mat, .fin ((solid p + solid q) / (solid p / d + solid q / e)), .fin (water p + water q), s.masses⟩ =
          (water p + water q) + (solid p + solid q) / ((solid p + solid q) / (solid p / d + solid q / e)) := by
        rw [← hsolid]; rfl
      rw [this]
      have h3' := h3.ne'
      have hden' := hden.ne'
      rw [div_div_eq_mul_div, mul_comm (solid p + solid q), mul_div_assoc, div_self h3', mul_one]
      ring
    refine ⟨rfl, hOK, ?_, rfl, hsolid, hvol, ?_⟩
    · intro c
      unfold content
      rw [hsol]
      exact k4 c
    · rw [(C57_volume _ hOK).1, hvol]

/-- **C57 (mixing succeeds).** Packages of one material can always be added; packages of different materials if the size classes of the second are known
to the first. -/
theorem C57_mix_succeeds (p q : Package) (hp : OK p) (hq : OK q) (hid : p.mat.psd.ident = q.mat.psd.ident → p.mat = q.mat)
    (hc : ∀ c ∈ q.mat.psd.classes, c ∈ p.mat.psd.classes) : ∃ r, p.add (.pkg q) = .ok r := by
  have : ∃ s, p.solids.add (.pkg q.solids) = .ok s := by
    by_cases hi : p.mat.psd.ident = q.mat.psd.ident
    · obtain ⟨r', hr', a⟩ := Psd.Props.C56_add_same p.solids q.solids (by unfold Package.solids; dsimp only; rw [hid hi]) hp.finite hq.finite hp.shape hq.shape hp.distinct
      exact ⟨r', hr'⟩
    · exact (Psd.Props.C56_add_other_iff p.solids q.solids hi hq.finite hp.shape hq.shape).1 hc
  obtain ⟨s, hs⟩ := this
  simp [Package.add, hs]

example : pkgA.add (.pkg pkgA') = .ok ⟨matA, .fin (11/(9/2)), .fin 4, lift [4, 4, 3]⟩ ∧ solid pkgA = 7 ∧ solid pkgA' = 4 ∧ volume pkgA + volume pkgA' = 17/2 := by
  decide +kernel
example : pkgA.add (.pkg pkgB) = .ok ⟨matA, .fin (27/(15/2)), .fin 4, lift [19, 7, 1]⟩ := by decide +kernel

/-- **C57 is false of the code without solids.** Adding two packages that contain no solids (only water) makes the solid density and the volume `nan`. -/
theorem C57_no_solids (p q : Package) (hp : OK p) (hq : OK q) (hid : p.mat = q.mat) (h1 : solid p = 0) (h2 : solid q = 0) :
    ∃ r, p.add (.pkg q) = .ok r ∧ r.density = .nan ∧ r.volume = .nan := by
  obtain ⟨r, hr⟩ := C57_mix_succeeds p q hp hq (fun _ => hid) (by rw [hid]; exact fun c hc => hc)
  refine ⟨r, hr, ?_⟩
  obtain ⟨d, hd, hd0⟩ := hp.density
  obtain ⟨e, he, he0⟩ := hq.density
  have hdens : ((p.solidMass.add q.solidMass).div ((p.solidMass.div p.density).add (q.solidMass.div q.density))) = .nan := by
    simp [solidMass_eq hp, solidMass_eq hq, hd, he, h1, h2, F64.add, F64.div, hd0.ne', he0.ne']
  simp only [Package.add] at hr
  split at hr
  · cases hr
  · rw [hdens] at hr
    cases hr
    refine ⟨rfl, ?_⟩
    simp only [Package.volume]
    have : ∀ x : F64, x.div .nan = .nan := by intro x; cases x <;> rfl
    rw [this]
    have : ∀ x : F64, x.add .nan = .nan := by intro x; cases x <;> rfl
    rw [this]

/-- **C57 counterexample.** -/
theorem C57_counterexample : ∃ p q r : Package, OK p ∧ OK q ∧ p.mat = q.mat ∧ p.add (.pkg q) = .ok r ∧ p.volume = .fin 3 ∧ q.volume = .fin 3 ∧ r.volume = .nan :=
  ⟨water1, water1, ⟨matA, .nan, .fin 6, lift [0, 0, 0]⟩, water1_ok, water1_ok, rfl, by decide +kernel, by decide +kernel, by decide +kernel, by decide +kernel⟩

/-- **C57 (scaling).** -/
theorem C57_mul (p : Package) (h : OK p) (k : ℚ) (hk : 0 ≤ k) :
    ∃ r, p.mul true (.fin k) = .ok r ∧ r.mat = p.mat ∧ OK r ∧ r.density = p.density ∧ (∀ c, content r c = content p c * k) ∧ water r = water p * k ∧
      r.volume = .fin (volume p * k) := by
  obtain ⟨l, hl⟩ := Psd.finite_iff.1 h.finite
  obtain ⟨d, hd, hd0⟩ := h.density
  obtain ⟨w, hw⟩ := h.water
  have hl' : p.masses = lift l := hl
  have hOK : OK ⟨p.mat, p.density, p.water.mul (.fin k), lift (l.map (· * k))⟩ := by
    refine ⟨Psd.finite_iff.2 ⟨_, rfl⟩, ?_, h.distinct, ⟨w * k, by rw [hw]; rfl⟩, d, hd, hd0⟩
    have := h.shape
    unfold Psd.Spec.Shape Package.solids at this ⊢
    simp only [hl', Psd.lift_length, List.length_map] at this ⊢
    exact this
  have hc : ∀ c, content ⟨p.mat, p.density, p.water.mul (.fin k), lift (l.map (· * k))⟩ c = content p c * k := by
    intro c
    have := Psd.content_scale p.mat.psd l k c
    unfold content Package.solids
    rw [hl']
    exact this
  refine ⟨⟨p.mat, p.density, p.water.mul (.fin k), lift (l.map (· * k))⟩, ?_, rfl, hOK, rfl, hc, ?_, ?_⟩
  · have : ¬ k < 0 := not_lt.2 hk
    simp [Package.mul, F64.gt, this, hl', Psd.map_mul_lift]
  · simp [Spec.water, hw, F64.mul]
  · rw [(C57_volume _ hOK).1]
    congr 1
    simp only [Spec.volume, hd]
    have e1 : water ⟨p.mat, .fin d, p.water.mul (.fin k), lift (l.map (· * k))⟩ = water p * k := by simp [Spec.water, hw, F64.mul]
    have e2 : solid ⟨p.mat, .fin d, p.water.mul (.fin k), lift (l.map (· * k))⟩ = solid p * k := by
      unfold solid Psd.Spec.total
      rw [hd] at hc
      have : ∀ c, Psd.Spec.content (⟨p.mat, .fin d, p.water.mul (.fin k), lift (l.map (· * k))⟩ : Package).solids c = Psd.Spec.content p.solids c * k := hc
      rw [show Psd.Spec.content (⟨p.mat, .fin d, p.water.mul (.fin k), lift (l.map (· * k))⟩ : Package).solids = fun c => Psd.Spec.content p.solids c * k from funext this,
        List.sum_map_mul_right]
      rfl
    rw [e1, e2]
    ring

/-! ## C57: splitting -/

/-- **C57 (extraction).** Extraction of a finite mass splits every size class and the water, and so (both parts keep the solid density) the volume. -/
theorem C57_extract (p p' r : Package) (a : Arg Package) (hp : OK p) (h : p.extract a = (.ok r, p'))
    (h1 : ∀ b x, a = .num b x → (∃ q, x = .fin q) ∧ p.mass ≠ .fin 0) (h2 : ∀ c b x, a = .tup c b x → ∃ q, x = .fin q)
    (h3 : ∀ s b x, a = .strTup s b x → ∃ q, x = .fin q) :
    p'.mat = p.mat ∧ r.mat = p.mat ∧ OK p' ∧ OK r ∧ p'.density = p.density ∧ r.density = p.density ∧ (∀ c, content p c = content p' c + content r c) ∧
      water p = water p' + water r ∧ volume p = volume p' + volume r := by
  obtain ⟨d, hd, hd0⟩ := hp.density
  obtain ⟨w, hw⟩ := hp.water
  -- volumes follow from the contents
  suffices key : p'.mat = p.mat ∧ r.mat = p.mat ∧ OK p' ∧ OK r ∧ p'.density = p.density ∧ r.density = p.density ∧
      (∀ c, content p c = content p' c + content r c) ∧ water p = water p' + water r by
    obtain ⟨k1, k2, k3, k4, k5, k6, k7, k8⟩ := key
    refine ⟨k1, k2, k3, k4, k5, k6, k7, k8, ?_⟩
    have hs : solid p = solid p' + solid r := by
      have : solid p' + solid r = (p.mat.psd.classes.map (fun c => content p' c + content r c)).sum := by
        rw [List.sum_map_add, ← congrArg (fun m : Material => m.psd.classes) k1]
        unfold solid Psd.Spec.total
        have e : r.solids.mat.classes = p'.mat.psd.classes := by
          show r.mat.psd.classes = _
          rw [k1, k2]
        rw [e]
        rfl
      rw [this]
      unfold solid Psd.Spec.total
      congr 1
      apply List.map_congr_left
      intro c _
      exact k7 c
    simp only [Spec.volume, k5, k6, hd]
    rw [k8, hs]
    ring
  have mkOK : ∀ (q : Package) (s : Psd.Package) (w' : ℚ), q.mat = p.mat → q.density = p.density → q.water = .fin w' → q.masses = s.masses →
      s.mat = p.solids.mat → s.masses.length = p.solids.masses.length → Psd.Spec.Finite s → OK q := by
    intro q s w' e1 e2 e3 e4 e5 e6 e7
    refine ⟨?_, ?_, ?_, ⟨w', e3⟩, d, by rw [e2, hd], hd0⟩
    · intro x hx
      exact e7 x (by rw [← e4]; exact hx)
    · have := hp.shape
      unfold Psd.Spec.Shape at this ⊢
      show q.masses.length = q.mat.psd.classes.length
      rw [e1, e4, e6, this]
      rfl
    · rw [e1]; exact hp.distinct
  have cont : ∀ (q : Package) (s : Psd.Package), q.mat = p.mat → q.masses = s.masses → s.mat = p.solids.mat → ∀ c, content q c = Psd.Spec.content s c := by
    intro q s e1 e2 e3 c
    have : q.solids = s := by
      obtain ⟨sm, sl⟩ := s
      dsimp only at e2 e3
      subst e3
      unfold Package.solids
      rw [e1, e2]
    unfold content
    rw [this]
  cases a with
  | pkg q => cases h
  | other => cases h
  | num b x =>
    obtain ⟨⟨q, rfl⟩, hm⟩ := h1 b x rfl
    have hm' := mass_eq hp
    have h0 : solid p + water p ≠ 0 := fun e => hm (by rw [hm', e])
    have e1 : (F64.fin q).div p.mass = .fin (q / (solid p + water p)) := by rw [hm']; simp [F64.div, h0]
    have e2 : (F64.fin 1).sub (.fin (q / (solid p + water p))) = .fin (1 - q / (solid p + water p)) := by
      simp [F64.sub, F64.neg, F64.add, sub_eq_add_neg]
    obtain ⟨l, hl⟩ := Psd.finite_iff.1 hp.finite
    have hl' : p.masses = lift l := hl
    simp only [Package.extract] at h
    split at h
    · split at h
      · cases h
      · rw [e1, e2, hl', Psd.map_mul_lift, Psd.map_mul_lift] at h
        cases h
        refine ⟨rfl, rfl, mkOK _ ⟨p.mat.psd, lift (l.map (· * (1 - q / (solid p + water p))))⟩ (w * (1 - q / (solid p + water p))) rfl rfl (by rw [hw]; rfl) rfl rfl (by simp [hl]) (Psd.finite_iff.2 ⟨_, rfl⟩),
          mkOK _ ⟨p.mat.psd, lift (l.map (· * (q / (solid p + water p))))⟩ (w * (q / (solid p + water p))) rfl rfl (by rw [hw]; rfl) rfl rfl (by simp [hl]) (Psd.finite_iff.2 ⟨_, rfl⟩),
          rfl, rfl, fun c => ?_, ?_⟩
        · rw [cont p ⟨p.mat.psd, lift l⟩ rfl hl' rfl c]
          change _ = Psd.Spec.content ⟨p.mat.psd, lift (l.map (· * (1 - q / (solid p + water p))))⟩ c +
            Psd.Spec.content ⟨p.mat.psd, lift (l.map (· * (q / (solid p + water p))))⟩ c
          rw [Psd.content_scale, Psd.content_scale]
          ring
        · generalize q / (solid p + water p) = f
          simp only [Spec.water, hw, F64.mul]
          ring
    · cases h
  | strTup s b x =>
    obtain ⟨q, rfl⟩ := h3 s b x rfl
    obtain ⟨l, hl⟩ := Psd.finite_iff.1 hp.finite
    have hl' : p.masses = lift l := hl
    simp only [Package.extract] at h
    split at h
    · split at h
      · cases h
      · rw [hl', Psd.map_mul_lift] at h
        cases h
        have e2 : (F64.fin w).sub (.fin q) = .fin (w - q) := by simp [F64.sub, F64.neg, F64.add, sub_eq_add_neg]
        refine ⟨rfl, rfl, mkOK _ ⟨p.mat.psd, lift l⟩ (w - q) rfl rfl (by rw [hw]; exact e2) rfl rfl (by simp [hl]) (Psd.finite_iff.2 ⟨_, rfl⟩),
          mkOK _ ⟨p.mat.psd, lift (l.map (· * 0))⟩ q rfl rfl rfl rfl rfl (by simp [hl]) (Psd.finite_iff.2 ⟨_, rfl⟩), rfl, rfl, fun c => ?_, ?_⟩
        · rw [cont p ⟨p.mat.psd, lift l⟩ rfl hl' rfl c]
          change _ = Psd.Spec.content ⟨p.mat.psd, lift l⟩ c + Psd.Spec.content ⟨p.mat.psd, lift (l.map (· * 0))⟩ c
          rw [Psd.content_scale, mul_zero, add_zero]
        · simp [Spec.water, hw, e2]
    · cases h
  | tup c b x =>
    simp only [Package.extract] at h
    cases hh : p.solids.extract (.tup c b x) with
    | mk a s =>
      rw [hh] at h
      cases a with
      | error e => cases h
      | ok r0 =>
        simp only at h
        obtain ⟨g1, g2, g3, g4, g5, g6, g7⟩ := Psd.Props.C56_extract p.solids s r0 _ hp.finite hh
          (fun b' x' => ⟨fun e => (by cases e), fun c' e => (by cases e; exact h2 c b x rfl)⟩)
        cases h
        refine ⟨rfl, rfl, mkOK _ s w rfl rfl hw rfl g1 g3 g5, mkOK _ r0 0 rfl rfl rfl rfl g2 g4 g6, rfl, rfl, fun c' => ?_, ?_⟩
        · rw [cont (p.withSolids s) s rfl rfl g1 c', cont ⟨p.mat, p.density, .fin 0, r0.masses⟩ r0 rfl rfl g2 c']
          exact g7 c'
        · simp [Spec.water, hw, Package.withSolids]
  | str v =>
    simp only [Package.extract] at h
    cases hh : p.solids.extract (.str v) with
    | mk a s =>
      rw [hh] at h
      cases a with
      | error e => cases h
      | ok r0 =>
        simp only at h
        obtain ⟨g1, g2, g3, g4, g5, g6, g7⟩ := Psd.Props.C56_extract p.solids s r0 _ hp.finite hh
          (fun b' x' => ⟨fun e => (by cases e), fun c' e => (by cases e)⟩)
        cases h
        refine ⟨rfl, rfl, mkOK _ s w rfl rfl hw rfl g1 g3 g5, mkOK _ r0 (w * 0) rfl rfl (by rw [hw]; rfl) rfl g2 g4 g6, rfl, rfl, fun c' => ?_, ?_⟩
        · rw [cont (p.withSolids s) s rfl rfl g1 c', cont ⟨p.mat, p.density, p.water.mul (.fin 0), r0.masses⟩ r0 rfl rfl g2 c']
          exact g7 c'
        · simp [Spec.water, hw, Package.withSolids, F64.mul]

example : pkgA.extract (.num true (.fin 5)) = (.ok ⟨matA, .fin 2, .fin (3/2), lift [2, 1, 1/2]⟩, ⟨matA, .fin 2, .fin (3/2), lift [2, 1, 1/2]⟩) ∧
    pkgA.extract (.strTup "H2O".toList true (.fin 1)) = (.ok ⟨matA, .fin 2, .fin 1, lift [0, 0, 0]⟩, ⟨matA, .fin 2, .fin 2, lift [4, 2, 1]⟩) ∧
    pkgA.extract (.tup 0 true (.fin 1)) = (.ok ⟨matA, .fin 2, .fin 0, lift [0, 0, 1]⟩, ⟨matA, .fin 2, .fin 3, lift [4, 2, 0]⟩) := by decide +kernel

/-- **C57 (refused extractions).** A refused extraction changes nothing. -/
theorem C57_error_unchanged (p p' : Package) (a : Arg Package) (e : PyErr) (h : p.extract a = (.error e, p')) : p' = p := by
  cases a with
  | pkg q => cases h; rfl
  | other => cases h; rfl
  | num b x =>
    simp only [Package.extract] at h
    split at h
    · split at h
      · cases h; rfl
      · cases h
    · cases h; rfl
  | strTup s b x =>
    simp only [Package.extract] at h
    split at h
    · split at h
      · cases h; rfl
      · cases h
    · cases h; rfl
  | tup c b x =>
    simp only [Package.extract] at h
    cases hh : p.solids.extract (.tup c b x) with
    | mk a s =>
      rw [hh] at h
      cases a with
      | ok r0 => cases h
      | error e' =>
        have := Psd.Props.C56_error_unchanged _ _ _ _ hh
        subst this
        cases h
        rfl
  | str v =>
    simp only [Package.extract] at h
    cases hh : p.solids.extract (.str v) with
    | mk a s =>
      rw [hh] at h
      cases a with
      | ok r0 => cases h
      | error e' =>
        have := Psd.Props.C56_error_unchanged _ _ _ _ hh
        subst this
        cases h
        rfl

/-- **C57 (water and masses refused).** More water, or mass, than the package contains cannot be extracted. -/
theorem C57_too_much (p : Package) (h : OK p) :
    (∀ x, solid p + water p < x → p.extract (.num true (.fin x)) = (.error .exception, p)) ∧
    (∀ s x, water p < x → p.extract (.strTup s true (.fin x)) = (.error .exception, p)) := by
  constructor
  · intro x hx
    simp only [Package.extract, if_true, mass_eq h, F64.gt, gt_iff_lt, decide_eq_true_eq, hx]
  · intro s x hx
    simp only [Package.extract, if_true, water_eq h, F64.gt, gt_iff_lt, decide_eq_true_eq, hx]

/-! ## C58: adding a mass of a size class -/

/-- **C58 is false of the code.** A tuple of any string and a float is taken for water: no size class changes and the water increases. -/
theorem C58_any_string_is_water (p : Package) (h : OK p) (s : Str) (x : ℚ) :
    ∃ r, p.add (.strTup s true (.fin x)) = .ok r ∧ r.mat = p.mat ∧ (∀ c, content r c = content p c) ∧ water r = water p + x := by
  obtain ⟨w, hw⟩ := h.water
  exact ⟨{ p with water := p.water.add (.fin x) }, by simp [Package.add], rfl, fun c => rfl, by simp [Spec.water, hw, F64.add]⟩

/-- **C58 counterexample.** Adding 5 kg of the class "0.1", given as a string, leaves the class as it was and adds 5 kg of water. -/
theorem C58_counterexample : ∃ p r : Package, OK p ∧ p.add (.strTup "0.1".toList true (.fin 5)) = .ok r ∧ content r (1/10) = content p (1/10) ∧
    water r = water p + 5 :=
  ⟨pkgA, { pkgA with water := .fin 8 }, pkgA_ok, by decide +kernel, by decide +kernel, by decide +kernel⟩

/-- **C58 (what holds).** With the size class given as a float the mass goes to that class alone. -/
theorem C58_float_partial (p r : Package) (h : OK p) (c : ℚ) (b : Bool) (x : ℚ) (hr : p.add (.tup c b (.fin x)) = .ok r) :
    r.mat = p.mat ∧ r.density = p.density ∧ r.water = p.water ∧ ∀ c', content r c' = content p c' + if c' = c then x else 0 := by
  simp only [Package.add] at hr
  split at hr
  · cases hr
  · rename_i s hs
    cases hr
    obtain ⟨a1, a2, a3, a4⟩ := Psd.Props.C56_tuple p.solids s c b x h.finite hs
    refine ⟨rfl, rfl, rfl, fun c' => ?_⟩
    have : (p.withSolids s).solids = s := by
      obtain ⟨sm, sl⟩ := s
      dsimp only at a1
      subst a1
      rfl
    unfold content
    rw [this]
    exact a4 c'

example : pkgA.add (.tup (1/10) true (.fin 5)) = .ok ⟨matA, .fin 2, .fin 3, lift [4, 7, 1]⟩ := by decide +kernel

/-! ## C47: creation -/

/-- **C47.** A package created with normalisation from an assay with a nonzero total has exactly the requested mass, of which the assay's water
fraction is water, at the assay's density. -/
theorem C47_create (m : Material) (name : Str) (l : List ℚ) (w d mass : ℚ) (h : m.psd.assays.lookup name = some (l.map .fin)) (hw : m.waters.lookup name = some w)
    (hd : m.densities.lookup name = some d) (h0 : l.sum ≠ 0) :
    ∃ p, m.createPackage (some name) (.fin mass) true = .ok p ∧ p.mat = m ∧ p.density = .fin d ∧ p.water = .fin (mass * w) ∧ p.mass = .fin mass ∧
      p.masses = l.map (fun x => .fin ((mass - mass * w) * (x / l.sum))) := by
  have hs : Psd.sum (l.map F64.fin) = .fin l.sum := Psd.sum_lift l
  have hsub : (F64.fin mass).sub ((F64.fin mass).mul (.fin w)) = .fin (mass - mass * w) := by simp [F64.sub, F64.mul, F64.neg, F64.add, sub_eq_add_neg]
  have hm : (l.map F64.fin).map (fun x => ((F64.fin (mass - mass * w)).mul x).div (.fin l.sum)) = lift (l.map (fun x => (mass - mass * w) * (x / l.sum))) := by
    simp only [List.map_map, lift]
    apply List.map_congr_left
    intro a _
    simp [F64.mul, F64.div, h0, mul_div_assoc]
  have hsum : (l.map (fun x => (mass - mass * w) * (x / l.sum))).sum = mass - mass * w := by
    rw [List.sum_map_mul_left]
    have : ∀ t : ℚ, (l.map (fun x => x / t)).sum = l.sum / t := by
      intro t
      simp only [div_eq_mul_inv]
      rw [List.sum_map_mul_right, List.map_id']
    rw [this, div_self h0, mul_one]
  refine ⟨⟨m, .fin d, .fin (mass * w), lift (l.map (fun x => (mass - mass * w) * (x / l.sum)))⟩, ?_, rfl, rfl, rfl, ?_, by simp [lift, Function.comp_def]⟩
  · have hne : ¬ (F64.fin l.sum = .fin 0) := by simp [h0]
    simp only [Material.createPackage, Psd.Material.assayTotal, Psd.Material.assay, h, Except.map, if_true, hs, dictGet, hw, hd, hne, if_false, hsub, hm]
    rfl
  · simp [Package.mass, Psd.sum_lift, hsum, F64.add]

example : matA.createPackage (some "Feed".toList) (.fin 8) true = .ok ⟨matA, .fin 3, .fin 4, lift [2, 1, 1]⟩ := by decide +kernel

/-- **C47 (as it is).** Without normalisation the package has the requested water, and of every size class the assay's share of the requested solids. -/
theorem C47_as_is (m : Material) (name : Str) (l : List ℚ) (w d mass : ℚ) (h : m.psd.assays.lookup name = some (l.map .fin)) (hw : m.waters.lookup name = some w)
    (hd : m.densities.lookup name = some d) :
    m.createPackage (some name) (.fin mass) false = .ok ⟨m, .fin d, .fin (mass * w), l.map (fun x => .fin ((mass - mass * w) * x))⟩ := by
  have hsub : (F64.fin mass).sub ((F64.fin mass).mul (.fin w)) = .fin (mass - mass * w) := by simp [F64.sub, F64.mul, F64.neg, F64.add, sub_eq_add_neg]
  simp only [Material.createPackage, Psd.Material.assay, h, dictGet, hw, hd, hsub]
  simp [F64.mul, F64.div]

/-- **C47 (unknown assay).** No package is created from an assay the material does not have, or one without a water fraction or density: `KeyError`. Without an assay the package is empty. -/
theorem C47_unknown (m : Material) (name : Str) (mass : F64) (norm : Bool) :
    (m.psd.assays.lookup name = none ∨ m.waters.lookup name = none ∨ m.densities.lookup name = none → m.createPackage (some name) mass norm = .error .keyError) ∧
    m.createPackage none mass norm = .ok ⟨m, .fin 1, .fin 0, m.psd.classes.map (fun _ => .fin 0)⟩ := by
  constructor
  · intro h
    unfold Material.createPackage Psd.Material.assayTotal Psd.Material.assay dictGet
    dsimp only
    cases norm with
    | true =>
      cases h1 : m.psd.assays.lookup name with
      | none => rfl
      | some l =>
        rw [h1] at h
        cases h2 : m.waters.lookup name with
        | none => rfl
        | some w =>
          rw [h2] at h
          cases h3 : m.densities.lookup name with
          | none => rfl
          | some d => rw [h3] at h; simp at h
    | false =>
      cases h2 : m.waters.lookup name with
      | none => rfl
      | some w =>
        rw [h2] at h
        cases h3 : m.densities.lookup name with
        | none => rfl
        | some d =>
          rw [h3] at h
          cases h1 : m.psd.assays.lookup name with
          | none => rfl
          | some l => rw [h1] at h; simp at h
  · simp [Material.createPackage]

example : matA.createPackage (some "Fed".toList) (.fin 8) true = .error .keyError ∧ matA.createPackage (some "Feed".toList) (.fin 8) false = .ok ⟨matA, .fin 3, .fin 4, lift [2, 1, 1]⟩ := by decide +kernel

/-- **C47 is false of the code for an assay with total zero** (unless it is all water): the solids go missing.  With all entries zero the package consists of
the water only. -/
theorem C47_zero_total (m : Material) (name : Str) (n : ℕ) (w d mass : ℚ) (h : m.psd.assays.lookup name = some ((List.replicate n (0 : ℚ)).map .fin))
    (hw : m.waters.lookup name = some w) (hd : m.densities.lookup name = some d) :
    ∃ p, m.createPackage (some name) (.fin mass) true = .ok p ∧ p.mass = .fin (mass * w) := by
  have hs : Psd.sum ((List.replicate n (0 : ℚ)).map F64.fin) = .fin 0 := by
    have := Psd.sum_lift (List.replicate n (0 : ℚ))
    simpa [lift] using this
  have hsub : (F64.fin mass).sub ((F64.fin mass).mul (.fin w)) = .fin (mass - mass * w) := by simp [F64.sub, F64.mul, F64.neg, F64.add, sub_eq_add_neg]
  refine ⟨⟨m, .fin d, .fin (mass * w), (List.replicate n (0 : ℚ)).map .fin⟩, ?_, ?_⟩
  · simp only [Material.createPackage, Psd.Material.assayTotal, Psd.Material.assay, h, Except.map, if_true, hs, dictGet, hw, hd, hsub]
    simp [F64.mul, F64.div]
  · simp only [Package.mass, hs, F64.add, zero_add]

/-- **C47 counterexample.** -/
theorem C47_counterexample : ∃ (m : Material) (name : Str) (p : Package), m.createPackage (some name) (.fin 8) true = .ok p ∧ p.mass = .fin 2 :=
  ⟨matA, "Zero".toList, ⟨matA, .fin 2, .fin 2, lift [0, 0, 0]⟩, by decide +kernel, by decide +kernel⟩

/-! ## C48, C54, C55 for slurries -/

/-- **C48 (slurry) is false of the code.** -/
theorem C48_slurry_counterexample : ∃ p r p' : Package, OK p ∧ p.extract (.num true (.fin 0)) = (.ok r, p') ∧ p'.water = .nan ∧ p'.masses = [.nan, .nan, .nan] := by
  refine ⟨⟨matA, .fin 1, .fin 0, lift [0, 0, 0]⟩, ⟨matA, .fin 1, .nan, [.nan, .nan, .nan]⟩, ⟨matA, .fin 1, .nan, [.nan, .nan, .nan]⟩, ?_, by decide +kernel, rfl, rfl⟩
  exact ⟨Psd.finite_iff.2 ⟨_, rfl⟩, rfl, by unfold Psd.Spec.Distinct; decide +kernel, ⟨_, rfl⟩, _, rfl, by decide +kernel⟩

/-- **C54 (slurry) is false of the code.** Adding an assay under a name in use is refused, but replaces the density and water fraction of the existing assay,
so packages created from it afterwards are different. -/
theorem C54_slurry_rejected_changes (m : Material) (name : Str) (d w : ℚ) (a : AssayArg) (h : name ∈ m.psd.assays.map (·.1)) :
    ∃ e m', m.addAssay name (some d) (some w) a = (.error e, m') ∧ m'.densities.lookup name = some d ∧ m'.waters.lookup name = some w ∧ m'.psd = m.psd := by
  have hset : ∀ (v : ℚ) (D : List (Str × ℚ)), (dictSet name v D).lookup name = some v := by
    intro v D
    induction D with
    | nil => simp [dictSet]
    | cons x D ih =>
      obtain ⟨k, u⟩ := x
      simp only [dictSet]
      split
      · rename_i hk; subst hk; simp
      · rename_i hk
        have : (name == k) = false := by simpa using fun e : name = k => hk e.symm
        simp [List.lookup_cons, this, ih]
  have hrej : ∃ e, m.psd.addAssay name a = (.error e, m.psd) := by
    cases a with
    | other => exact ⟨_, rfl⟩
    | otherShape => exact ⟨_, rfl⟩
    | array l =>
      by_cases hl : l.length ≠ m.psd.classes.length
      · exact ⟨.exception, by simp [Psd.Material.addAssay, hl]⟩
      · exact ⟨.exception, by simp only [Psd.Material.addAssay, hl, if_false, h, if_true]⟩
  obtain ⟨e, he⟩ := hrej
  refine ⟨e, { m with densities := dictSet name d m.densities, waters := dictSet name w m.waters }, ?_, hset d _, hset w _, rfl⟩
  simp [Material.addAssay, he]

/-- **C54 (slurry) counterexample.** -/
theorem C54_slurry_counterexample : ∃ (m m' : Material), m.addAssay "Feed".toList (some 9) (some 0) (.array (lift [1, 2, 3])) = (.error .exception, m') ∧
    m.createPackage (some "Feed".toList) (.fin 8) true ≠ m'.createPackage (some "Feed".toList) (.fin 8) true ∧ m' ≠ m :=
  ⟨matA, { matA with densities := [("Feed".toList, 9), ("Zero".toList, 2), ("Odd".toList, 1)], waters := [("Feed".toList, 0), ("Zero".toList, 1/4), ("Odd".toList, 1)] },
    by decide +kernel, by decide +kernel, by decide +kernel⟩

/-- **C54 (slurry, what holds).** A refused assay leaves the size classes and assays as they were, and an accepted one is registered with its density and
water fraction. -/
theorem C54_slurry_partial (m m' : Material) (name : Str) (d w : Option ℚ) (a : AssayArg) :
    (∀ e, m.addAssay name d w a = (.error e, m') → m'.psd = m.psd) ∧
    (m.addAssay name d w a = (.ok (), m') → ∃ d' w' l, d = some d' ∧ w = some w' ∧ a = .array l ∧ m'.densities.lookup name = some d' ∧
      m'.waters.lookup name = some w' ∧ m'.psd.assays.lookup name = some l) := by
  have hset : ∀ (v : ℚ) (D : List (Str × ℚ)), (dictSet name v D).lookup name = some v := by
    intro v D
    induction D with
    | nil => simp [dictSet]
    | cons x D ih =>
      obtain ⟨k, u⟩ := x
      simp only [dictSet]
      split
      · rename_i hk; subst hk; simp
      · rename_i hk
        have : (name == k) = false := by simpa using fun e : name = k => hk e.symm
        simp [List.lookup_cons, this, ih]
  cases d with
  | none => exact ⟨fun e h => by cases h; rfl, fun h => by cases h⟩
  | some d =>
    cases w with
    | none => exact ⟨fun e h => by cases h; rfl, fun h => by cases h⟩
    | some w =>
      simp only [Material.addAssay]
      rcases Psd.Props.C54_psd_add_assay m.psd name a with ⟨e, he⟩ | ⟨l, h1, _, _, h2, _, _, h3, _⟩
      · rw [he]
        exact ⟨fun e h => by cases h; rfl, fun h => by cases h⟩
      · cases hp : m.psd.addAssay name a with
        | mk x p =>
          rw [hp] at h2 h3
          dsimp only at h2 h3
          subst h2
          refine ⟨fun e h => (by cases h), fun h => ?_⟩
          cases h
          exact ⟨d, w, l, rfl, rfl, h1, hset d _, hset w _, h3⟩

/-- **C55 (slurry).** After `clear` the package is empty, and healthy. -/
theorem C55_slurry_clear (p : Package) (h : OK p) : p.clear.mass = .fin 0 ∧ (∀ c, content p.clear c = 0) ∧ water p.clear = 0 ∧ p.clear.volume = .fin 0 ∧ OK p.clear := by
  obtain ⟨c1, c2, c3, c4, c5⟩ := Psd.Props.C55_psd_clear p.solids h.finite
  have hs : p.clear.solids = p.solids.clear := rfl
  have hOK : OK p.clear := ⟨by rw [hs]; exact c5, by
    rw [hs]; unfold Psd.Spec.Shape; rw [c2, c1]; exact h.shape, h.distinct, ⟨0, rfl⟩, 1, rfl, by norm_num⟩
  have hsol : solid p.clear = 0 := by
    have := Psd.mass_eq hOK.finite hOK.distinct hOK.shape
    rw [hs, c3] at this
    exact (F64.fin.inj this).symm
  have hw : water p.clear = 0 := rfl
  refine ⟨?_, ?_, rfl, ?_, hOK⟩
  · rw [mass_eq hOK, hsol, hw]; simp
  · intro c
    unfold content
    rw [hs]
    exact c4 c
  · rw [(C57_volume _ hOK).1]
    have : volume p.clear = water p.clear + solid p.clear / 1 := rfl
    rw [this, hsol, hw]; simp

example : pkgA.clear = ⟨matA, .fin 1, .fin 0, lift [0, 0, 0]⟩ := by decide +kernel

/-- **C57 (size classes).** Of a package with solids, the reported fractions of the size classes are fractions of the solids, lie between zero and one and add up to one; of a class the material does
not have, neither mass nor fraction is reported: both raise. -/
theorem C57_class_fractions (p : Package) (h : OK p) (hn : ∀ c, 0 ≤ content p c) (ht : 0 < solid p) :
    (∃ f : ℚ → ℚ, (∀ c ∈ p.mat.psd.classes, p.classMass c = .ok (.fin (content p c)) ∧ p.classFraction c = .ok (.fin (f c)) ∧ 0 ≤ f c ∧ f c ≤ 1 ∧ f c * solid p = content p c) ∧
      (p.mat.psd.classes.map f).sum = 1) ∧
    ∀ c, c ∉ p.mat.psd.classes → p.classMass c = .error .valueError ∧ p.classFraction c = .error .valueError := by
  obtain ⟨f, hf, hs⟩ := Psd.Props.C56_fractions p.solids h.finite h.shape h.distinct hn ht
  refine ⟨⟨f, fun c hc => ?_, hs⟩, fun c hc => ?_⟩
  · obtain ⟨-, h2, h3, h4⟩ := hf c hc
    have e : p.classMass c = .ok (.fin (content p c)) := Psd.classMass_ok h.finite h.shape hc
    refine ⟨e, ?_, h2, h3, h4⟩
    have h4' : f c * solid p = content p c := h4
    unfold Package.classFraction
    rw [e, solidMass_eq h, ← h4']
    simp [F64.div, ht.ne']
  · have hc' : c ∉ p.solids.mat.classes := hc
    have e : p.classMass c = .error .valueError := by
      unfold Package.classMass Psd.Package.classMass Psd.Material.index
      rw [Psd.indexOf_none hc']
    exact ⟨e, by unfold Package.classFraction; rw [e]⟩

example : pkgA.classFraction (1/10) = .ok (.fin (2/7)) ∧ pkgA.classFraction 7 = .error .valueError ∧ 0 < solid pkgA := by decide +kernel

end Auxi.Slurry.Props
