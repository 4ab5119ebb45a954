import Verif.Props.PsdFloat2
import Verif.Props.Slurry

/-! # C139: slurry packages in floating point -/
namespace Auxi.SlurryFloat.Props
open Auxi.Slurry Auxi.Rounding Auxi.SlurryFloat Auxi.SlurryFloat.Spec
open Auxi.Psd (F64 Arg lift)
open Auxi.Slurry.Spec (content water solid)
open Auxi.PsdFloat (rd addF subF mulF divF arraySum)
open Auxi.PsdFloat.Spec (Adds Good)
open Auxi.PsdFloat.Proofs (Floats)
open Auxi.ChemFloat.Spec (γ)

variable {rnd : ℚ → ℚ} {S : List ℚ → ℚ} {u η : ℚ}

/-! ## Without rounding -/

/-- **C139 (exact, slurry).** With exact arithmetic these are the functions of `Slurry`. -/
theorem C139_slurry_exact (p : Package) (a : Arg Package) :
    SlurryFloat.mass id List.sum p = p.mass ∧ SlurryFloat.add id List.sum p a = p.add a ∧ SlurryFloat.extract id List.sum p a = p.extract a := by
  have hs : ∀ p, SlurryFloat.solidMass List.sum p = p.solidMass := fun p => PsdFloat.Props.arraySum_exact _
  have hm : SlurryFloat.mass id List.sum p = p.mass := by
    unfold SlurryFloat.mass Package.mass
    rw [PsdFloat.Props.arraySum_exact, PsdFloat.Props.addF_id]
  have e0 := fun a : Arg Psd.Package => (PsdFloat.Props.C139_exact p.solids p.mat.psd a true (.fin 0) none true 0)
  have e1 : ∀ a, PsdFloat.extract id List.sum p.solids a = p.solids.extract a := fun a => (e0 a).1
  have e2 : ∀ a, PsdFloat.add id p.solids a = p.solids.add a := fun a => (e0 a).2.1
  refine ⟨hm, ?_, ?_⟩
  · unfold SlurryFloat.add Package.add
    cases a with
    | pkg q => dsimp only; rw [hs, hs, PsdFloat.Props.divF_id, PsdFloat.Props.addF_id, e2]; rfl
    | tup c b x => dsimp only; rw [e2]; rfl
    | strTup t b x => dsimp only; rw [PsdFloat.Props.addF_id]
    | _ => rfl
  · unfold SlurryFloat.extract Package.extract
    cases a with
    | num b x => dsimp only; rw [hm, PsdFloat.Props.mulF_id, PsdFloat.Props.divF_id, PsdFloat.Props.subF_id]
    | tup c b x => dsimp only; rw [e1]; rfl
    | str v => dsimp only; rw [e1, PsdFloat.Props.mulF_id]; rfl
    | strTup t b x => dsimp only; rw [PsdFloat.Props.mulF_id, PsdFloat.Props.subF_id]
    | _ => rfl

/-! ## Mass -/

theorem sound_solids {p : Package} (h : Sound rnd p) : PsdFloat.Spec.Sound rnd p.solids := h.1

theorem sound_form {p : Package} (h : Sound rnd p) : ∃ l w, p.masses = lift l ∧ Floats rnd l ∧ p.water = .fin w ∧ rnd w = w ∧ 0 ≤ w := by
  obtain ⟨l, hl, hf⟩ := PsdFloat.Proofs.sound_iff.1 (sound_solids h)
  obtain ⟨w, hw, w1, w0⟩ := h.2
  exact ⟨l, w, hl, hf, hw, w1, w0⟩

theorem water_of {p : Package} {w : ℚ} (h : p.water = .fin w) : water p = w := by unfold Slurry.Spec.water; rw [h]

theorem mass_form (R : IEEE rnd u η) (hS : ∀ l, Adds rnd l (S l)) {p : Package} (h : Sound rnd p) : ∃ M, SlurryFloat.mass rnd S p = .fin M ∧ rnd M = M ∧ 0 ≤ M := by
  obtain ⟨l, w, hl, hf, hw, w1, w0⟩ := sound_form h
  obtain ⟨s1, s2, -⟩ := PsdFloat.Proofs.adds_spec R (hS l) hf
  refine ⟨rnd (S l + w), ?_, R.idem _, R.nonneg (add_nonneg s2 w0)⟩
  unfold SlurryFloat.mass
  rw [hl, PsdFloat.Proofs.arraySum_lift, hw]
  rfl

/-- **C139 (mass, slurry).** The mass of a slurry is the sum of its solids and its water within one rounding for each size class and one more; it is no less than the water. -/
theorem C139_slurry_mass (R : IEEE rnd u η) (hS : ∀ l, Adds rnd l (S l)) (p : Package) (hp : Sound rnd p) (hs : Psd.Spec.Shape p.solids) (hd : Psd.Spec.Distinct p.mat.psd)
    (hn : (p.masses.length : ℚ) * u < 1) :
    ∃ M, SlurryFloat.mass rnd S p = .fin M ∧ rnd M = M ∧ |M - (solid p + water p)| ≤ ((1 + u) * (1 + γ u p.masses.length) - 1) * (solid p + water p) ∧ water p ≤ M := by
  have u0 := R.u0
  obtain ⟨l, w, hl, hf, hw, w1, w0⟩ := sound_form hp
  obtain ⟨M, hM, M1, M2, M3⟩ := PsdFloat.Props.C139_mass R hS p.solids hp.1 hs hd hn
  have hM' : arraySum S p.masses = .fin M := hM
  obtain ⟨s1, s2, -⟩ := PsdFloat.Proofs.adds_spec R (hS l) hf
  have M0 : 0 ≤ M := by rw [hl, PsdFloat.Proofs.arraySum_lift] at hM'; cases hM'; exact s2
  have e := R.add M1 w1
  rw [abs_of_nonneg (add_nonneg M0 w0)] at e
  have T0 : 0 ≤ solid p := by
    change 0 ≤ Psd.Spec.total p.solids
    unfold Psd.Spec.total
    rw [Psd.contents_eq (p := p.solids) hl hd hs]
    exact PsdFloat.Proofs.floats_sum hf
  have hM2 : |M - solid p| ≤ γ u p.masses.length * solid p := M2
  have g0 : 0 ≤ γ u p.masses.length := by
    unfold ChemFloat.Spec.γ
    have : 0 ≤ (p.masses.length : ℚ) * u := mul_nonneg (Nat.cast_nonneg _) u0
    exact div_nonneg this (by linarith)
  rw [water_of hw]
  refine ⟨rnd (M + w), by unfold SlurryFloat.mass; rw [hM', hw]; rfl, R.idem _, ?_, ?_⟩
  · generalize γ u p.masses.length = g at *
    rw [abs_le] at e hM2 ⊢
    have t1 : u * M ≤ u * (solid p + g * solid p) := mul_le_mul_of_nonneg_left (by linarith) u0
    have t2 : 0 ≤ g * w := mul_nonneg g0 w0
    have t3 : 0 ≤ u * (g * w) := mul_nonneg u0 t2
    constructor <;> nlinarith [e.1, e.2, hM2.1, hM2.2]
  · calc w = rnd w := w1.symm
      _ ≤ rnd (M + w) := R.mono (by linarith)

/-! ## Splitting -/

/-- **C139 (splitting, slurry).** Extracting a mass, an amount of water, an amount of a size class or a whole size class leaves nothing negative, makes nothing larger, keeps the material and the
density of the solids, and conserves every size class and the water within two roundings of what there was. -/
theorem C139_slurry_extract (R : IEEE rnd u η) (hS : ∀ l, Adds rnd l (S l)) (p p' r : Package) (a : Arg Package) (hp : Sound rnd p) (ha : ArgOk rnd (SlurryFloat.mass rnd S p) a)
    (h : SlurryFloat.extract rnd S p a = (.ok r, p')) :
    Sound rnd r ∧ Sound rnd p' ∧ r.mat = p.mat ∧ p'.mat = p.mat ∧ r.density = p.density ∧ p'.density = p.density ∧ r.masses.length = p.masses.length ∧ p'.masses.length = p.masses.length ∧
    (∀ c, 0 ≤ content r c ∧ content r c ≤ content p c ∧ 0 ≤ content p' c ∧ content p' c ≤ content p c ∧
      |content r c + content p' c - content p c| ≤ (2 * u + u ^ 2) * content p c + 2 * η) ∧
    0 ≤ water r ∧ water r ≤ water p ∧ 0 ≤ water p' ∧ water p' ≤ water p ∧ |water r + water p' - water p| ≤ (2 * u + u ^ 2) * water p + 2 * η := by
  have u0 := R.u0
  have η0 := R.η0
  obtain ⟨l, w, hl, hf, hw, w1, w0⟩ := sound_form hp
  obtain ⟨M, hM, M1, M0⟩ := mass_form R hS hp
  obtain ⟨m, ρ, wt, ms⟩ := p
  dsimp only at hl hw
  subst hl hw
  have triv : ∀ x : ℚ, 0 ≤ x → |0 + x - x| ≤ (2 * u + u ^ 2) * x + 2 * η := fun x hx => by rw [zero_add, sub_self, abs_zero]; positivity
  have triv' : ∀ x : ℚ, 0 ≤ x → |x + 0 - x| ≤ (2 * u + u ^ 2) * x + 2 * η := fun x hx => by rw [add_zero, sub_self, abs_zero]; positivity
  have gc : ∀ c, 0 ≤ content ⟨m, ρ, .fin w, lift l⟩ c := fun c => (PsdFloat.Proofs.content_good (m := m.psd) R hf c).2
  have zeros : (lift l).map (mulF rnd · (.fin 0)) = lift (l.map fun x => rnd (x * 0)) := PsdFloat.Proofs.mul_lift l 0
  unfold SlurryFloat.extract at h
  cases a with
  | num b x =>
    obtain ⟨⟨q, hq, q1, q0⟩, hne⟩ := ha
    subst hq
    dsimp only at h
    split at h
    · split at h
      · cases h
      · rename_i hgt
        rw [hM] at hgt hne h
        have Mne : M ≠ 0 := fun h => hne (by rw [h])
        have Mp : 0 < M := lt_of_le_of_ne M0 (Ne.symm Mne)
        have le : q ≤ M := by
          by_contra hh
          exact hgt (by unfold F64.gt; exact decide_eq_true (not_le.1 hh))
        have sub : subF rnd (.fin 1) (.fin (rnd (q / M))) = .fin (rnd (1 - rnd (q / M))) := by change F64.fin (rnd (1 + -_)) = _; rw [← sub_eq_add_neg]
        rw [PsdFloat.Proofs.divF_fin Mne, sub, PsdFloat.Proofs.mul_lift, PsdFloat.Proofs.mul_lift] at h
        cases h
        obtain ⟨f1, f0, f2⟩ := PsdFloat.Proofs.fraction_spec R q0 Mp le
        have g0 : 0 ≤ rnd (1 - rnd (q / M)) := R.nonneg (by linarith)
        obtain ⟨x1, x2, x3, x4, x5⟩ := PsdFloat.Proofs.split_scalar R w1 w0 f1 f0 f2
        refine ⟨⟨PsdFloat.Proofs.sound_iff (p := ⟨m.psd, _⟩).2 ⟨_, rfl, PsdFloat.Proofs.floats_map R hf f0⟩, ⟨_, rfl, R.idem _, x1⟩⟩,
          ⟨PsdFloat.Proofs.sound_iff (p := ⟨m.psd, _⟩).2 ⟨_, rfl, PsdFloat.Proofs.floats_map R hf g0⟩, ⟨_, rfl, R.idem _, x3⟩⟩, rfl, rfl, rfl, rfl, by simp, by simp, fun c => ?_, x1, x2, x3, x4, x5⟩
        have c1 := PsdFloat.Proofs.content_good (m := m.psd) R hf c
        have := PsdFloat.Proofs.split_scalar R c1.1 c1.2 f1 f0 f2
        have e1 := PsdFloat.Proofs.content_map m.psd l (f := fun x => rnd (x * rnd (q / M))) (by simp [R.zero]) c
        have e2 := PsdFloat.Proofs.content_map m.psd l (f := fun x => rnd (x * rnd (1 - rnd (q / M)))) (by simp [R.zero]) c
        rw [← e1, ← e2] at this
        exact this
    · cases h
  | strTup t b x =>
    obtain ⟨q, hq, q1, q0⟩ := ha
    subst hq
    dsimp only at h
    split at h
    · split at h
      · cases h
      · rename_i hgt
        have le : q ≤ w := by
          by_contra hh
          exact hgt (by unfold F64.gt; exact decide_eq_true (not_le.1 hh))
        have sub : subF rnd (.fin w) (.fin q) = .fin (rnd (w - q)) := by change F64.fin (rnd (w + -_)) = _; rw [← sub_eq_add_neg]
        rw [sub, zeros] at h
        cases h
        obtain ⟨t1, t2, t3⟩ := PsdFloat.Proofs.take_scalar R w1 w0 q1 q0 le
        refine ⟨⟨PsdFloat.Proofs.sound_iff (p := ⟨m.psd, _⟩).2 ⟨_, rfl, PsdFloat.Proofs.floats_map R hf le_rfl⟩, ⟨_, rfl, q1, q0⟩⟩, ⟨hp.1, ⟨_, rfl, R.idem _, t1⟩⟩, rfl, rfl, rfl, rfl, by simp, by simp,
          fun c => ?_, q0, le, t1, t2, t3⟩
        have e1 : content ⟨m, ρ, .fin q, lift (l.map fun x => rnd (x * 0))⟩ c = 0 := by
          have := PsdFloat.Proofs.content_map m.psd l (f := fun x => rnd (x * 0)) (by simp [R.zero]) c
          refine Eq.trans this ?_
          rw [mul_zero, R.zero]
        rw [e1]
        exact ⟨le_rfl, gc c, gc c, le_rfl, triv _ (gc c)⟩
    · cases h
  | tup c b x =>
    dsimp only at h
    split at h
    · cases h
    · rename_i r' s hx
      cases h
      obtain ⟨h1, h2, h3, h4, h5, h6, h7, -⟩ := PsdFloat.Props.C139_extract R hS _ _ _ (.tup c b x) (sound_solids hp) ha hx
      have e1 : content ⟨m, ρ, .fin 0, r'.masses⟩ = Psd.Spec.content r' := by obtain ⟨rm, rl⟩ := r'; cases h3; rfl
      have e2 : content (Package.withSolids ⟨m, ρ, .fin w, lift l⟩ s) = Psd.Spec.content s := by obtain ⟨rm, rl⟩ := s; cases h4; rfl
      refine ⟨⟨h1, ⟨0, rfl, R.zero, le_rfl⟩⟩, ⟨h2, ⟨w, rfl, w1, w0⟩⟩, rfl, rfl, rfl, rfl, h5, h6, fun c => ?_, le_rfl, w0, w0, le_rfl, triv w w0⟩
      rw [e1, e2]
      exact h7 c
  | str v =>
    dsimp only at h
    split at h
    · cases h
    · rename_i r' s hx
      rw [show mulF rnd (.fin w) (.fin 0) = .fin 0 by change F64.fin (rnd (w * 0)) = _; rw [mul_zero, R.zero]] at h
      cases h
      obtain ⟨h1, h2, h3, h4, h5, h6, h7, -⟩ := PsdFloat.Props.C139_extract R hS _ _ _ (.str v) (sound_solids hp) trivial hx
      have e1 : content ⟨m, ρ, .fin 0, r'.masses⟩ = Psd.Spec.content r' := by obtain ⟨rm, rl⟩ := r'; cases h3; rfl
      have e2 : content (Package.withSolids ⟨m, ρ, .fin w, lift l⟩ s) = Psd.Spec.content s := by obtain ⟨rm, rl⟩ := s; cases h4; rfl
      refine ⟨⟨h1, ⟨0, rfl, R.zero, le_rfl⟩⟩, ⟨h2, ⟨w, rfl, w1, w0⟩⟩, rfl, rfl, rfl, rfl, h5, h6, fun c => ?_, le_rfl, w0, w0, le_rfl, triv w w0⟩
      rw [e1, e2]
      exact h7 c
  | pkg q => cases h
  | other => cases h

/-! ## Joining -/

/-- **C139 (joining, slurry).** Adding two slurries rounds the mass of each size class and of the water once. -/
theorem C139_slurry_add (R : IEEE rnd u η) (p q r : Package) (hm : p.mat.psd = q.mat.psd ∨ p.mat.psd.ident ≠ q.mat.psd.ident) (hp : Sound rnd p) (hq : Sound rnd q)
    (sp : Psd.Spec.Shape p.solids) (sq : Psd.Spec.Shape q.solids) (hd : Psd.Spec.Distinct q.mat.psd) (h : SlurryFloat.add rnd S p (.pkg q) = .ok r) :
    Sound rnd r ∧ Psd.Spec.Shape r.solids ∧ r.mat = p.mat ∧
    (∀ c, content r c = rnd (content p c + content q c) ∧ |content r c - (content p c + content q c)| ≤ u * (content p c + content q c)) ∧
    water r = rnd (water p + water q) ∧ |water r - (water p + water q)| ≤ u * (water p + water q) := by
  obtain ⟨-, w, -, -, hw, w1, w0⟩ := sound_form hp
  obtain ⟨-, v, -, -, hv, v1, v0⟩ := sound_form hq
  unfold SlurryFloat.add at h
  dsimp only at h
  split at h
  · cases h
  · rename_i s hx
    obtain ⟨h1, h2, h3, h4⟩ := PsdFloat.Props.C139_add R p.solids q.solids s hm hp.1 hq.1 sp sq hd hx
    rw [hw, hv, show addF rnd (.fin w) (.fin v) = .fin (rnd (w + v)) from rfl] at h
    cases h
    obtain ⟨sm, sl⟩ := s
    cases h3
    have e := R.add w1 v1
    rw [abs_of_nonneg (add_nonneg w0 v0)] at e
    rw [water_of hw, water_of hv]
    exact ⟨⟨h1, ⟨_, rfl, R.idem _, R.nonneg (add_nonneg w0 v0)⟩⟩, h2, rfl, h4, rfl, e⟩

/-- **C139 (a tuple, slurry).** Water added to a slurry, under whatever name (C58), is rounded once. -/
theorem C139_slurry_water (R : IEEE rnd u η) (p r : Package) (t : Str) (b : Bool) (x : ℚ) (hp : Sound rnd p) (hx : rnd x = x) (x0 : 0 ≤ x) (h : SlurryFloat.add rnd S p (.strTup t b (.fin x)) = .ok r) :
    Sound rnd r ∧ r.mat = p.mat ∧ r.density = p.density ∧ r.masses = p.masses ∧ water r = rnd (water p + x) ∧ |water r - (water p + x)| ≤ u * (water p + x) := by
  obtain ⟨-, w, -, -, hw, w1, w0⟩ := sound_form hp
  unfold SlurryFloat.add at h
  dsimp only at h
  split at h
  · rw [hw, show addF rnd (.fin w) (.fin x) = .fin (rnd (w + x)) from rfl] at h
    cases h
    have e := R.add w1 hx
    rw [abs_of_nonneg (add_nonneg w0 x0)] at e
    rw [water_of hw]
    exact ⟨⟨hp.1, ⟨_, rfl, R.idem _, R.nonneg (add_nonneg w0 x0)⟩⟩, rfl, rfl, rfl, rfl, e⟩
  · cases h

/-! ## A plant -/

/-- **C139 (plant, slurry).** However often the slurries of a plant are split and joined, the mass of every size class and of the water in it changes by at most about two roundings of it for each
step. -/
theorem C139_slurry_plant (R : IEEE rnd u η) (hS : ∀ l, Adds rnd l (S l)) (mats : List Material) (hid : ∀ m ∈ mats, ∀ m' ∈ mats, m.psd.ident = m'.psd.ident → m = m') (hd : ∀ m ∈ mats, Psd.Spec.Distinct m.psd)
    (ps qs : List Package) (n : ℕ) (hp : ∀ p ∈ ps, p.mat ∈ mats ∧ Psd.Spec.Shape p.solids ∧ Sound rnd p)
    (h : Plant.RunN (fun p p' r => ∃ a, ArgOk rnd (SlurryFloat.mass rnd S p) a ∧ SlurryFloat.extract rnd S p a = (.ok r, p')) (fun p q r => SlurryFloat.add rnd S p (.pkg q) = .ok r) ps n qs) :
    (∀ q ∈ qs, q.mat ∈ mats ∧ Psd.Spec.Shape q.solids ∧ Sound rnd q) ∧
    (∀ c, |(qs.map (content · c)).sum - (ps.map (content · c)).sum| ≤ ((1 + (2 * u + u ^ 2)) ^ n - 1) * (ps.map (content · c)).sum + n * (2 * η) * (1 + (2 * u + u ^ 2)) ^ n) ∧
    |(qs.map water).sum - (ps.map water).sum| ≤ ((1 + (2 * u + u ^ 2)) ^ n - 1) * (ps.map water).sum + n * (2 * η) * (1 + (2 * u + u ^ 2)) ^ n := by
  have u0 := R.u0
  have η0 := R.η0
  have hm : ∀ {p q : Package}, p.mat ∈ mats → q.mat ∈ mats → p.mat.psd = q.mat.psd ∨ p.mat.psd.ident ≠ q.mat.psd.ident := by
    intro p q i j
    by_cases hi : p.mat.psd.ident = q.mat.psd.ident
    · exact .inl (by rw [hid _ i _ j hi])
    · exact .inr hi
  have one : ∀ μ : Package → ℚ, (∀ p, Sound rnd p → 0 ≤ μ p) →
      (∀ p p' r a, Sound rnd p → ArgOk rnd (SlurryFloat.mass rnd S p) a → SlurryFloat.extract rnd S p a = (.ok r, p') → |μ r + μ p' - μ p| ≤ (2 * u + u ^ 2) * μ p + 2 * η) →
      (∀ p q r, p.mat.psd = q.mat.psd ∨ p.mat.psd.ident ≠ q.mat.psd.ident → Sound rnd p → Sound rnd q → Psd.Spec.Shape p.solids → Psd.Spec.Shape q.solids → Psd.Spec.Distinct q.mat.psd →
        SlurryFloat.add rnd S p (.pkg q) = .ok r → |μ r - (μ p + μ q)| ≤ u * (μ p + μ q)) →
      (∀ q ∈ qs, q.mat ∈ mats ∧ Psd.Spec.Shape q.solids ∧ Sound rnd q) ∧
      |(qs.map μ).sum - (ps.map μ).sum| ≤ ((1 + (2 * u + u ^ 2)) ^ n - 1) * (ps.map μ).sum + n * (2 * η) * (1 + (2 * u + u ^ 2)) ^ n := by
    intro μ μ0 μ1 μ2
    refine Plant.RunN.drift (I := fun p => p.mat ∈ mats ∧ Psd.Spec.Shape p.solids ∧ Sound rnd p) (μ := μ) (w := 2 * u + u ^ 2) (e := 2 * η) (by positivity) (by positivity) (fun p hp => μ0 p hp.2.2) ?_ ?_ hp h
    · rintro p p' r ⟨i1, i2, i3⟩ ⟨a, ha, he⟩
      obtain ⟨h1, h2, h3, h4, -, -, h5, h6, -⟩ := C139_slurry_extract R hS p p' r a i3 ha he
      refine ⟨⟨h4 ▸ i1, ?_, h2⟩, ⟨h3 ▸ i1, ?_, h1⟩, ?_⟩
      · unfold Psd.Spec.Shape Package.solids at i2 ⊢; dsimp only at i2 ⊢; rw [h6, h4]; exact i2
      · unfold Psd.Spec.Shape Package.solids at i2 ⊢; dsimp only at i2 ⊢; rw [h5, h3]; exact i2
      · have := μ1 p p' r a i3 ha he
        rwa [add_comm (μ r)] at this
    · rintro p q r ⟨i1, i2, i3⟩ ⟨j1, j2, j3⟩ he
      obtain ⟨h1, h2, h3, -⟩ := C139_slurry_add R p q r (hm i1 j1) i3 j3 i2 j2 (hd _ j1) he
      refine ⟨⟨h3 ▸ i1, h2, h1⟩, (μ2 p q r (hm i1 j1) i3 j3 i2 j2 (hd _ j1) he).trans ?_⟩
      have := mul_nonneg u0 (add_nonneg (μ0 p i3) (μ0 q j3))
      have := mul_nonneg (mul_nonneg u0 u0) (add_nonneg (μ0 p i3) (μ0 q j3))
      nlinarith
  have wt := one water (fun p hp => by obtain ⟨-, w, -, -, hw, -, w0⟩ := sound_form hp; rw [water_of hw]; exact w0)
    (fun p p' r a hp ha he => (C139_slurry_extract R hS p p' r a hp ha he).2.2.2.2.2.2.2.2.2.2.2.2.2) (fun p q r hm hp hq sp sq hd he => (C139_slurry_add R p q r hm hp hq sp sq hd he).2.2.2.2.2)
  refine ⟨wt.1, fun c => (one (content · c) ?_ ?_ ?_).2, wt.2⟩
  · intro p hp
    obtain ⟨l, hl, hf⟩ := PsdFloat.Proofs.sound_iff.1 (sound_solids hp)
    have := PsdFloat.Proofs.content_good (m := p.solids.mat) R hf c
    rw [← hl] at this
    exact this.2
  · intro p p' r a hp ha he
    exact ((C139_slurry_extract R hS p p' r a hp ha he).2.2.2.2.2.2.2.2.1 c).2.2.2.2
  · intro p q r hm hp hq sp sq hd he
    exact ((C139_slurry_add R p q r hm hp hq sp sq hd he).2.2.2.1 c).2

/-! ## Examples -/

/-- A slurry of tenths, which floats do not have. -/
def pkgT : Package := ⟨Slurry.Props.matA, .fin 3, .fin (rnd64 (4/10)), PsdFloat.Props.pkgT.masses⟩

theorem pkgT_sound : Sound rnd64 pkgT := ⟨PsdFloat.Props.pkgT_sound, ⟨rnd64 (4/10), rfl, ieee64.idem _, by decide +kernel⟩⟩

theorem pkgT_arg : ArgOk rnd64 (SlurryFloat.mass rnd64 (PsdFloat.Props.leftSum rnd64) pkgT) (.num true (.fin (rnd64 (1/10)))) :=
  ⟨⟨rnd64 (1/10), rfl, ieee64.idem _, by decide +kernel⟩, by decide +kernel⟩

/-- The hypotheses hold of it, and extracting and adding are not exact. -/
example : Psd.Spec.Shape pkgT.solids ∧ Psd.Spec.Distinct pkgT.mat.psd ∧ (pkgT.masses.length : ℚ) * pow2 (-53) < 1 ∧
    (SlurryFloat.extract rnd64 (PsdFloat.Props.leftSum rnd64) pkgT (.num true (.fin (rnd64 (1/10))))).1 ≠ (pkgT.extract (.num true (.fin (rnd64 (1/10))))).1 ∧
    (SlurryFloat.add rnd64 (PsdFloat.Props.leftSum rnd64) pkgT (.pkg pkgT)).isOk = true ∧
    SlurryFloat.add rnd64 (PsdFloat.Props.leftSum rnd64) pkgT (.strTup "H2O".toList true (.fin (rnd64 (1/10)))) ≠ pkgT.add (.strTup "H2O".toList true (.fin (rnd64 (1/10)))) :=
  ⟨rfl, Slurry.Props.pkgA_ok.distinct, by decide +kernel, by decide +kernel, by decide +kernel, by decide +kernel⟩

/-- A plant in which a mass is taken of a slurry, and two slurries are mixed. -/
example : ∃ qs, Plant.RunN (fun p p' r => ∃ a, ArgOk rnd64 (SlurryFloat.mass rnd64 (PsdFloat.Props.leftSum rnd64) p) a ∧ SlurryFloat.extract rnd64 (PsdFloat.Props.leftSum rnd64) p a = (.ok r, p'))
    (fun p q r => SlurryFloat.add rnd64 (PsdFloat.Props.leftSum rnd64) p (.pkg q) = .ok r) [pkgT, pkgT, pkgT] 2 qs := by
  have e1 : ∃ r p', SlurryFloat.extract rnd64 (PsdFloat.Props.leftSum rnd64) pkgT (.num true (.fin (rnd64 (1/10)))) = (.ok r, p') := by
    cases h : SlurryFloat.extract rnd64 (PsdFloat.Props.leftSum rnd64) pkgT (.num true (.fin (rnd64 (1/10)))) with
    | mk o p' =>
      cases o with
      | ok r => exact ⟨r, p', rfl⟩
      | error e =>
        have : (SlurryFloat.extract rnd64 (PsdFloat.Props.leftSum rnd64) pkgT (.num true (.fin (rnd64 (1/10))))).1.isOk = true := by decide +kernel
        rw [h] at this; cases this
  have e2 : ∃ s, SlurryFloat.add rnd64 (PsdFloat.Props.leftSum rnd64) pkgT (.pkg pkgT) = .ok s := by
    cases h : SlurryFloat.add rnd64 (PsdFloat.Props.leftSum rnd64) pkgT (.pkg pkgT) with
    | ok s => exact ⟨s, rfl⟩
    | error e =>
      have : (SlurryFloat.add rnd64 (PsdFloat.Props.leftSum rnd64) pkgT (.pkg pkgT)).isOk = true := by decide +kernel
      rw [h] at this; cases this
  obtain ⟨r, p', he⟩ := e1
  obtain ⟨s, hs⟩ := e2
  have r1 := Plant.RunN.join (part := fun p p' r => ∃ a, ArgOk rnd64 (SlurryFloat.mass rnd64 (PsdFloat.Props.leftSum rnd64) p) a ∧ SlurryFloat.extract rnd64 (PsdFloat.Props.leftSum rnd64) p a = (.ok r, p'))
    (mix := fun p q r => SlurryFloat.add rnd64 (PsdFloat.Props.leftSum rnd64) p (.pkg q) = .ok r) (.start (ps := [pkgT, pkgT, pkgT])) (List.Perm.refl _) hs
  exact ⟨_, .split r1 (p := pkgT) (rest := [s]) (List.Perm.swap _ _ _) ⟨_, pkgT_arg, he⟩⟩

end Auxi.SlurryFloat.Props
