import Verif.Proofs.ThermoFloat
import Verif.Props.PsdFloat2

/-! # C148: thermochemical packages in floating point -/
namespace Auxi.ThermoFloat.Props
open Auxi Auxi.ThermoFloat Auxi.ThermoFloat.Spec Auxi.ThermoFloat.Proofs Auxi.Rounding
open Auxi.PsdFloat.Spec (Adds)
open Auxi.Chem (indexOf)
open Auxi.ChemFloat.Spec (γ)
open Auxi.PsdFloat.Proofs (adds_spec floats_sum)
open Auxi.PsdFloat.Props (leftSum halfSum C139_orders sum_mulF)

variable {rnd : ℚ → ℚ} {u η : ℚ} {S : List ℚ → ℚ} {h : Str → ℚ → Res ℚ} {solve : Material → List ℚ → ℚ → ℚ → Res ℚ}

/-! ## Splitting -/

/-- **C148 (splitting).** Whatever part is extracted, whatever the enthalpies are and in whatever order numpy adds: both packages are sound again and of the same material, the rest keeps its
temperature and pressure, and so does the extracted part; no mass becomes negative or grows, and of every compound the two masses add up to what there was within two roundings. -/
theorem C148_split (R : IEEE rnd u η) (hS : ∀ l, Adds rnd l (S l)) (p p' r : Package) (a : Part) (hp : Sound rnd p) (ha : PartOk rnd a) (hh : extract rnd S h p a = (.ok r, p')) :
    Sound rnd r ∧ Sound rnd p' ∧ r.mat = p.mat ∧ p'.mat = p.mat ∧ p'.T = p.T ∧ p'.P = p.P ∧ (Known p a → r.T = p.T ∧ r.P = p.P) ∧
    ∀ c, 0 ≤ held r c ∧ held r c ≤ held p c ∧ 0 ≤ held p' c ∧ held p' c ≤ held p c ∧ |held r c + held p' c - held p c| ≤ (2 * u + u ^ 2) * held p c + 2 * η := by
  obtain ⟨⟨m1, m2, m3, m4, m5, m6, m7⟩, -, hk, -⟩ := extract_main R hS p p' r a hp ha hh
  exact ⟨m1, m2, m3, m4, m5, m6, fun k => ⟨(hk k).1, (hk k).2.1⟩, m7⟩

/-- **C148 (a compound).** Extracting a compound moves all of it, exactly, and nothing else. Extracting a mass of a compound moves exactly that mass, and what is left is the float nearest to the difference. -/
theorem C148_compound (R : IEEE rnd u η) (hS : ∀ l, Adds rnd l (S l)) (p p' r : Package) (c : Str) (x : ℚ) (hp : Sound rnd p) :
    (extract rnd S h p (.compound c) = (.ok r, p') → ∀ d, held r d = (if d = c then held p c else 0) ∧ held p' d = (if d = c then 0 else held p d)) ∧
    (rnd x = x → 0 ≤ x → c ∈ p.mat.compounds → extract rnd S h p (.ofCompound c x) = (.ok r, p') → ∀ d, held r d = (if d = c then x else 0) ∧ held p' d = (if d = c then rnd (held p c - x) else held p d)) :=
  ⟨fun hh => (extract_main R hS p p' r (.compound c) hp trivial hh).2.2.2.2.1 c rfl, fun h1 h2 h3 hh => (extract_main R hS p p' r (.ofCompound c x) hp ⟨h1, h2⟩ hh).2.2.2.2.2 c x rfl h3⟩

theorem sum_diff {f g k : Str → ℚ} {w : Str → ℚ} {δ e : ℚ} : ∀ {l : List Str}, (∀ c ∈ l, |f c + g c - k c| ≤ δ * k c + e) →
    |(l.map (fun c => w c * f c)).sum + (l.map (fun c => w c * g c)).sum - (l.map (fun c => w c * k c)).sum| ≤ δ * (l.map (fun c => |w c| * k c)).sum + e * (l.map (fun c => |w c|)).sum
  | [], _ => by simp
  | c :: l, hl => by
    have ih := sum_diff (f := f) (g := g) (k := k) (w := w) (l := l) (fun d hd => hl d (List.mem_cons_of_mem _ hd))
    have hc := hl c List.mem_cons_self
    simp only [List.map_cons, List.sum_cons]
    generalize (l.map (fun c => w c * f c)).sum = F at *
    generalize (l.map (fun c => w c * g c)).sum = G at *
    generalize (l.map (fun c => w c * k c)).sum = K at *
    generalize (l.map (fun c => |w c| * k c)).sum = A at *
    generalize (l.map (fun c => |w c|)).sum = B at *
    have t : w c * f c + F + (w c * g c + G) - (w c * k c + K) = w c * (f c + g c - k c) + (F + G - K) := by ring
    rw [t]
    refine (abs_add_le _ _).trans ?_
    rw [abs_mul]
    have := mul_le_mul_of_nonneg_left hc (abs_nonneg (w c))
    linarith

theorem sum_mono {f k w : Str → ℚ} : ∀ {l : List Str}, (∀ c ∈ l, f c ≤ k c) → (l.map (fun c => |w c| * f c)).sum ≤ (l.map (fun c => |w c| * k c)).sum
  | [], _ => by simp
  | c :: l, hl => by
    have ih := sum_mono (f := f) (k := k) (w := w) (l := l) (fun d hd => hl d (List.mem_cons_of_mem _ hd))
    have := mul_le_mul_of_nonneg_left (hl c List.mem_cons_self) (abs_nonneg (w c))
    simp only [List.map_cons, List.sum_cons]
    linarith

theorem tol_mono (u0 : 0 ≤ u) {n : ℕ} {A B : ℚ} (hAB : A ≤ B) : tol u η n A ≤ tol u η n B := by
  unfold tol
  have : 1 ≤ (1 + u) ^ (n + 1) := one_le_pow₀ (by linarith)
  have := mul_le_mul_of_nonneg_left hAB (show 0 ≤ (1 + u) ^ (n + 1) - 1 by linarith)
  linarith

/-- **C148 (enthalpy of a part).** The extracted package has the enthalpy of what was extracted at its temperature, up to the roundings of computing it; so has what is left, if anything could be extracted. -/
theorem C148_matches (R : IEEE rnd u η) (hS : ∀ l, Adds rnd l (S l)) (p p' r : Package) (a : Part) (hp : Sound rnd p) (ha : PartOk rnd a) (hh : extract rnd S h p a = (.ok r, p')) :
    Matches u η h r ∧ (Known p a → Matches u η h p') ∧ (¬ Known p a → p' = p ∧ r.H = 0 ∧ ∀ c, held r c = 0) := by
  obtain ⟨-, h1, h2, h3, -⟩ := extract_main R hS p p' r a hp ha hh
  exact ⟨h1, fun k => (h2 k).2.2, h3⟩

/-- **C148 (energy of a split).** If the enthalpy of a package was within `δ` of that of its masses at its temperature, the enthalpies of the two parts add up to it within `δ`, the roundings
of computing both, and the enthalpy of the mass that rounding made or lost. -/
theorem C148_energy (R : IEEE rnd u η) (hS : ∀ l, Adds rnd l (S l)) (p p' r : Package) (a : Part) (δ : ℚ) (hp : Sound rnd p) (ha : PartOk rnd a) (hδ : |p.H - exactH h p p.T| ≤ δ)
    (hh : extract rnd S h p a = (.ok r, p')) :
    |r.H + p'.H - p.H| ≤ δ + 2 * tol u η p.mat.compounds.length (sizeH h p p.T) + ((2 * u + u ^ 2) * sizeH h p p.T + 2 * η * sizes h p.mat p.T) := by
  have u0 := R.u0
  have η0 := R.η0
  obtain ⟨⟨m1, m2, m3, m4, m5, m6, m7⟩, hr, hk, hnk, -⟩ := extract_main R hS p p' r a hp ha hh
  have A0 := sizeH_nonneg (h := h) R hp p.T
  have t0 := tol_nonneg u0 η0 p.mat.compounds.length A0
  have B0 : 0 ≤ sizes h p.mat p.T := List.sum_nonneg (fun x hx => by obtain ⟨c, -, rfl⟩ := List.mem_map.1 hx; exact abs_nonneg _)
  have δ0 : 0 ≤ δ := (abs_nonneg _).trans hδ
  by_cases k : Known p a
  · obtain ⟨hT, -, hp'⟩ := hk k
    unfold Matches at hr hp'
    rw [hT, m3] at hr
    rw [m5, m4] at hp'
    have l1 : tol u η p.mat.compounds.length (sizeH h r p.T) ≤ tol u η p.mat.compounds.length (sizeH h p p.T) := tol_mono u0 (by unfold sizeH; rw [m3]; exact sum_mono (fun c _ => (m7 c).2.1))
    have l2 : tol u η p.mat.compounds.length (sizeH h p' p.T) ≤ tol u η p.mat.compounds.length (sizeH h p p.T) := tol_mono u0 (by unfold sizeH; rw [m4]; exact sum_mono (fun c _ => (m7 c).2.2.2.1))
    have d : |exactH h r p.T + exactH h p' p.T - exactH h p p.T| ≤ (2 * u + u ^ 2) * sizeH h p p.T + 2 * η * sizes h p.mat p.T := by
      unfold exactH sizeH sizes
      rw [m3, m4]
      exact sum_diff (fun c _ => (m7 c).2.2.2.2)
    generalize exactH h r p.T = X at *
    generalize exactH h p' p.T = Y at *
    generalize exactH h p p.T = Z at *
    rw [abs_le] at *
    constructor <;> linarith [hr.1, hr.2, hp'.1, hp'.2, d.1, d.2, hδ.1, hδ.2]
  · obtain ⟨e1, e2, -⟩ := hnk k
    rw [e1, e2, zero_add, sub_self, abs_zero]
    positivity

/-- **C148 (refusal).** More than there is cannot be extracted, and the attempt changes nothing. -/
theorem C148_refused (p : Package) (c : Str) (x : ℚ) :
    (x > mass S p → extract rnd S h p (.mass x) = (.error .exception, p)) ∧
    (c ∈ p.mat.compounds → p.masses.length = p.mat.compounds.length → x > held p c → extract rnd S h p (.ofCompound c x) = (.error .exception, p)) := by
  constructor
  · intro hx; unfold extract; dsimp only; unfold extractMass; rw [if_pos hx]
  · intro hc hl hx
    unfold extract; dsimp only; unfold extractCompoundMass
    obtain ⟨i, hi, hil⟩ := Chem.indexOf_mem hc
    have hi2 := (List.getElem?_eq_some_iff.1 (Chem.indexOf_some hi)).1
    have hy : p.masses[i]? = some p.masses[i] := List.getElem?_eq_getElem (by omega)
    rw [if_neg (not_not.2 hc)]
    unfold Material.index
    rw [hi]
    dsimp only
    rw [hy]
    dsimp only
    rw [held_at hi hy] at hx
    rw [if_pos hx]

theorem hLoop_ok {m : Material} {a : List ℚ} {T : ℚ} (hl : a.length = m.compounds.length) (hd : ∀ c ∈ m.compounds, ∃ v, h c T = .ok v) :
    ∀ (l : List Str) (acc : ℚ), (∀ c ∈ l, c ∈ m.compounds) → ∃ v, hLoop rnd h m a T l acc = .ok v
  | [], acc, _ => ⟨acc, rfl⟩
  | c :: l, acc, hm => by
    obtain ⟨i, hi, -⟩ := Chem.indexOf_mem (hm c List.mem_cons_self)
    have hi2 := (List.getElem?_eq_some_iff.1 (Chem.indexOf_some hi)).1
    have hy : a[i]? = some a[i] := List.getElem?_eq_getElem (by omega)
    obtain ⟨v, hv⟩ := hd c (hm c List.mem_cons_self)
    unfold hLoop Material.index thermoH
    rw [hi]
    dsimp only
    rw [hy]
    dsimp only
    rw [hv]
    dsimp only
    exact hLoop_ok hl hd l _ (fun d hd' => hm d (List.mem_cons_of_mem _ hd'))

/-- **C148 (success).** A mass can be extracted if it is no more than the mass of a package that is not empty and the thermochemical data have every compound at the temperature of the package. -/
theorem C148_succeeds (p : Package) (x : ℚ) (hl : p.masses.length = p.mat.compounds.length) (h0 : mass S p ≠ 0) (hx : x ≤ mass S p) (hd : ∀ c ∈ p.mat.compounds, ∃ v, h c p.T = .ok v) :
    ∃ r p', extract rnd S h p (.mass x) = (.ok r, p') := by
  unfold extract
  dsimp only
  unfold extractMass
  rw [if_neg (not_lt.2 hx), if_neg h0]
  dsimp only
  have ok : ∀ a : List ℚ, a.length = p.mat.compounds.length → ∃ v, calcH rnd h p.mat a p.T = .ok v := fun a ha => hLoop_ok ha hd _ _ (fun c hc => hc)
  obtain ⟨r, hr⟩ : ∃ r, newPackage rnd S h p.mat (p.masses.map (fun y => rnd (y * rnd (x / mass S p)))) p.P p.T = .ok r := by
    unfold newPackage
    split
    · obtain ⟨v, hv⟩ := ok (p.masses.map (fun y => rnd (y * rnd (x / mass S p)))) (by simpa using hl)
      rw [hv]; exact ⟨_, rfl⟩
    · exact ⟨_, rfl⟩
  rw [hr]
  dsimp only
  unfold settle setT
  dsimp only
  obtain ⟨v, hv⟩ := ok (p.masses.map (fun y => rnd (y * rnd (1 - rnd (x / mass S p))))) (by simpa using hl)
  rw [hv]
  exact ⟨_, _, rfl⟩

theorem lookup_sum : ∀ {cs : List Str} {ms : List ℚ}, cs.Nodup → ms.length = cs.length → (cs.map (fun c => ((cs.zip ms).lookup c).getD 0)).sum = ms.sum
  | [], [], _, _ => rfl
  | [], x :: ms, _, hl => by simp at hl
  | c :: cs, [], _, hl => by simp at hl
  | c :: cs, x :: ms, hn, hl => by
    obtain ⟨n1, n2⟩ := List.nodup_cons.1 hn
    rw [List.map_cons, List.sum_cons, List.sum_cons, List.zip_cons_cons, List.lookup_cons_self]
    congr 1
    refine Eq.trans ?_ (lookup_sum n2 (ms := ms) (by simpa using hl))
    congr 1
    apply List.map_congr_left
    intro d hd
    have hne : (d == c) = false := by
      have : d ≠ c := fun e => n1 (e ▸ hd)
      simpa using this
    rw [List.lookup_cons, hne]

/-- The total of the masses of the compounds. -/
theorem total_eq {p : Package} (hp : Sound rnd p) : (p.mat.compounds.map (held p)).sum = p.masses.sum := lookup_sum hp.1 hp.2.1

/-- **C148 (requested mass).** A mass extracted from a package is the requested mass within one rounding for each compound and two more. -/
theorem C148_requested (R : IEEE rnd u η) (hS : ∀ l, Adds rnd l (S l)) (p p' r : Package) (x : ℚ) (hp : Sound rnd p) (hx : rnd x = x ∧ 0 ≤ x) (hn : (p.mat.compounds.length + 2 : ℕ) * u < 1)
    (hh : extract rnd S h p (.mass x) = (.ok r, p')) :
    |(r.mat.compounds.map (held r)).sum - x| ≤ γ u (p.mat.compounds.length + 2) * x + η * ((1 + u) * (p.mat.compounds.map (held p)).sum + p.mat.compounds.length) := by
  have u0 := R.u0
  have u1 := R.u1
  have η0 := R.η0
  have hr := (C148_split R hS p p' r (.mass x) hp hx hh).1
  rw [total_eq hp, total_eq hr]
  rw [← hp.2.1] at hn ⊢
  unfold extract at hh
  dsimp only at hh
  unfold extractMass at hh
  dsimp only at hh
  split at hh
  · cases hh
  · split at hh
    · cases hh
    · rename_i hne
      split at hh
      · cases hh
      · rename_i r0 hr0
        obtain ⟨rfl, -⟩ := settle_ok hh
        rw [(held_new hr0).2.1]
        obtain ⟨s1, s2, lo, hi, s5⟩ := adds_spec R (hS p.masses) hp.2.2
        have M0 : 0 < S p.masses := lt_of_le_of_ne s2 (Ne.symm hne)
        unfold mass
        have f0 : 0 ≤ rnd (x / S p.masses) := R.nonneg (div_nonneg hx.2 M0.le)
        obtain ⟨s1, s2⟩ := sum_mulF R (l := p.masses) hp.2.2 f0
        obtain ⟨q1, q2'⟩ := ChemFloat.Proofs.quotient_bounds R hn hx.2 M0 lo hi
        have fb := R.bounds (div_nonneg hx.2 M0.le)
        have S0 : 0 ≤ p.masses.sum := floats_sum hp.2.2
        generalize rnd (x / S p.masses) = F at *
        have t1 : (1 + u) * F * p.masses.sum ≤ (1 + u) * ((1 + u) * (x / S p.masses) + η) * p.masses.sum := mul_le_mul_of_nonneg_right (mul_le_mul_of_nonneg_left fb.2 (by linarith)) S0
        have t2 : (1 - u) * ((1 - u) * (x / S p.masses) - η) * p.masses.sum ≤ (1 - u) * F * p.masses.sum := mul_le_mul_of_nonneg_right (mul_le_mul_of_nonneg_left fb.1 (by linarith)) S0
        have t3 : 0 ≤ u * η * p.masses.sum := mul_nonneg (mul_nonneg u0 η0) S0
        rw [abs_le]
        constructor <;> linarith

/-! ## Joining -/

theorem setH_keeps {p r : Package} {H : ℚ} (hh : setH solve p H = .ok r) : r.mat = p.mat ∧ r.masses = p.masses ∧ r.P = p.P ∧ r.H = H := by
  unfold setH at hh
  split at hh
  · cases hh
  · cases hh; exact ⟨rfl, rfl, rfl, rfl⟩

theorem setH_T {p r : Package} {H : ℚ} (hh : setH solve p H = .ok r) : solve r.mat r.masses p.T H = .ok r.T := by
  unfold setH at hh
  split at hh
  · cases hh
  · rename_i t ht; cases hh; exact ht

/-- **C148 (temperature of a sum).** The temperature of the sum of two packages is the one the solver finds for the masses and the enthalpy of the sum. -/
theorem C148_join_T (p q r : Package) (hh : addPackage rnd S h solve p q = .ok r) : ∃ T, solve r.mat r.masses T r.H = .ok r.T := by
  unfold addPackage at hh
  split at hh
  · split at hh
    · split at hh
      · cases hh
      · split at hh
        · cases hh
        · rename_i r0 _ r1 h1
          cases hh
          exact ⟨_, by have t := setH_T h1; rw [← (setH_keeps h1).2.2.2] at t; exact t⟩
    · cases hh
  · split at hh
    · cases hh
    · exact ⟨_, by rw [(setH_keeps hh).2.2.2]; exact setH_T hh⟩

/-- **C148 (a tuple).** Adding a mass of a compound rounds the mass of that compound once and leaves the others, the temperature and the pressure as they were; the enthalpy grows by that of the mass at the temperature of the package, rounded. -/
theorem C148_tuple (R : IEEE rnd u η) (p r : Package) (c : Str) (x : ℚ) (hp : Sound rnd p) (hx : rnd x = x ∧ 0 ≤ x) (hh : addTuple rnd h p c x = .ok r) :
    Sound rnd r ∧ r.mat = p.mat ∧ r.T = p.T ∧ r.P = p.P ∧ c ∈ p.mat.compounds ∧ (∀ d, held r d = if d = c then rnd (held p c + x) else held p d) ∧ r.H = rnd (p.H + rnd (spec h c p.T * x)) := by
  unfold addTuple at hh
  split at hh
  · cases hh
  · rename_i i hi
    split at hh
    · cases hh
    · rename_i v hv
      split at hh
      · cases hh
      · rename_i y hy
        cases hh
        have hlt : i < p.masses.length := (List.getElem?_eq_some_iff.1 hy).1
        have hyf := hp.2.2 y (List.mem_of_getElem? hy)
        refine ⟨⟨hp.1, by rw [List.length_set]; exact hp.2.1, PsdFloat.Proofs.floats_set hp.2.2 ⟨R.idem _, R.nonneg (add_nonneg hyf.2 hx.2)⟩⟩, rfl, rfl, rfl, index_mem hi, fun d => ?_, ?_⟩
        · rw [held_set (index_ok hi) hlt _ _ _ _ p.P p.T p.H, held_at (index_ok hi) hy]
        · unfold thermoH at hv
          split at hv
          · cases hv
          · rename_i w hw
            cases hv
            unfold spec
            rw [hw]

theorem addLoop_main (R : IEEE rnd u η) {q : Package} (hq : Sound rnd q) : ∀ {l : List Str} {p r : Package}, l.Nodup → Sound rnd p → addLoop rnd h q l p = .ok r →
    Sound rnd r ∧ r.mat = p.mat ∧ r.P = p.P ∧ r.T = p.T ∧ (∀ c ∈ l, c ∈ p.mat.compounds) ∧ ∀ d, held r d = if d ∈ l then rnd (held p d + held q d) else held p d
  | [], p, r, _, hp, hh => by cases hh; exact ⟨hp, rfl, rfl, rfl, fun c hc => by (cases hc), fun d => by simp⟩
  | c :: l, p, r, hn, hp, hh => by
    obtain ⟨n1, n2⟩ := List.nodup_cons.1 hn
    unfold addLoop at hh
    split at hh
    · cases hh
    · rename_i hc
      split at hh
      · cases hh
      · rename_i x hx
        split at hh
        · cases hh
        · rename_i p1 h1
          have hxq : x = held q c := by
            unfold compoundMass at hx
            split at hx
            · split at hx
              · cases hx
              · rename_i i hi
                split at hx
                · rename_i y hy
                  cases hx
                  exact (held_at (index_ok hi) hy).symm
                · cases hx
            · rename_i hm
              cases hx
              unfold held; rw [lookup_zip_none hm]; rfl
          obtain ⟨t1, t2, t3, t4, t5, t6, -⟩ := C148_tuple R p p1 c x hp (hxq ▸ held_good R hq c) h1
          obtain ⟨i1, i2, i3, i4, i5, i6⟩ := addLoop_main R hq n2 t1 hh
          refine ⟨i1, i2.trans t2, i3.trans t4, i4.trans t3, ?_, fun d => ?_⟩
          · intro d hd
            rcases List.mem_cons.1 hd with rfl | hd
            · exact not_not.1 hc
            · exact t2 ▸ i5 d hd
          · rw [i6 d, t6 d]
            by_cases hd : d = c
            · subst hd
              rw [if_neg n1, if_pos rfl, if_pos List.mem_cons_self, hxq]
            · simp only [List.mem_cons, hd, false_or, if_false]

theorem held_zip (R : IEEE rnd u η) (m : Material) (a b : List ℚ) (hl : a.length = b.length) (P T H : ℚ) (c : Str) :
    held ⟨m, List.zipWith (fun x y => rnd (x + y)) a b, P, T, H⟩ c = rnd (held ⟨m, a, 0, 0, 0⟩ c + held ⟨m, b, 0, 0, 0⟩ c) := by
  unfold held
  dsimp only
  by_cases hm : c ∈ m.compounds
  · obtain ⟨i, hi, -⟩ := Chem.indexOf_mem hm
    rw [lookup_zip hi, lookup_zip hi, lookup_zip hi, List.getElem?_zipWith]
    by_cases hi' : i < a.length
    · rw [List.getElem?_eq_getElem hi', List.getElem?_eq_getElem (hl ▸ hi')]; rfl
    · rw [List.getElem?_eq_none (not_lt.1 hi'), List.getElem?_eq_none (hl ▸ not_lt.1 hi')]; simp [R.zero]
  · rw [lookup_zip_none hm, lookup_zip_none hm, lookup_zip_none hm]; simp [R.zero]

/-- **C148 (joining).** The sum of two packages has of every compound the float nearest to the sum of the masses and, as enthalpy, the float nearest to the sum of the enthalpies, whatever temperature the solver finds. -/
theorem C148_join (R : IEEE rnd u η) (p q r : Package) (hm : p.mat = q.mat ∨ p.mat.ident ≠ q.mat.ident) (hp : Sound rnd p) (hq : Sound rnd q) (hh : addPackage rnd S h solve p q = .ok r) :
    Sound rnd r ∧ r.mat = p.mat ∧ r.P = p.P ∧ r.H = rnd (p.H + q.H) ∧ (∀ c ∈ q.mat.compounds, c ∈ p.mat.compounds) ∧
    ∀ c, held r c = rnd (held p c + held q c) ∧ |held r c - (held p c + held q c)| ≤ u * (held p c + held q c) := by
  have gp := fun c => held_good R hp c
  have gq := fun c => held_good R hq c
  suffices X : Sound rnd r ∧ r.mat = p.mat ∧ r.P = p.P ∧ r.H = rnd (p.H + q.H) ∧ (∀ c ∈ q.mat.compounds, c ∈ p.mat.compounds) ∧ ∀ c, held r c = rnd (held p c + held q c) by
    refine ⟨X.1, X.2.1, X.2.2.1, X.2.2.2.1, X.2.2.2.2.1, fun c => ⟨X.2.2.2.2.2 c, ?_⟩⟩
    have := R.add (gp c).1 (gq c).1
    rwa [← X.2.2.2.2.2 c, abs_of_nonneg (add_nonneg (gp c).2 (gq c).2)] at this
  unfold addPackage at hh
  split at hh
  · rename_i hid
    have hmat : p.mat = q.mat := hm.resolve_right (not_not.2 hid)
    split at hh
    · rename_i hlen
      split at hh
      · cases hh
      · rename_i r0 h0
        obtain ⟨k1, k2, k3, k4⟩ := held_new h0
        split at hh
        · cases hh
        · rename_i r1 h1
          obtain ⟨l1, l2, l3, l4⟩ := setH_keeps h1
          cases hh
          refine ⟨⟨by dsimp only; rw [l1, k1]; exact hp.1, ?_, ?_⟩, by dsimp only; rw [l1, k1], rfl, l4, fun c hc => hmat ▸ hc, fun c => ?_⟩
          · dsimp only
            rw [l1, l2, k1, k2, List.length_zipWith, ← hlen, min_self]
            exact hp.2.1
          · dsimp only
            rw [l2, k2]
            intro x hx
            obtain ⟨a, ha, b, hb, rfl⟩ : ∃ a ∈ p.masses, ∃ b ∈ q.masses, rnd (a + b) = x := by
              obtain ⟨i, hi, rfl⟩ := List.mem_iff_getElem.1 hx
              rw [List.getElem_zipWith]
              exact ⟨_, List.getElem_mem _, _, List.getElem_mem _, rfl⟩
            exact ⟨R.idem _, R.nonneg (add_nonneg (hp.2.2 a ha).2 (hq.2.2 b hb).2)⟩
          · rw [held_congr (p := { r1 with P := p.P }) (q := ⟨p.mat, List.zipWith (fun x y => rnd (x + y)) p.masses q.masses, 0, 0, 0⟩) (l1.trans k1) (l2.trans k2), held_zip R _ _ _ hlen]
            rw [held_congr (p := q) (q := ⟨p.mat, q.masses, 0, 0, 0⟩) hmat.symm rfl, held_congr (p := p) (q := ⟨p.mat, p.masses, 0, 0, 0⟩) rfl rfl]
    · cases hh
  · split at hh
    · cases hh
    · rename_i r0 h0
      obtain ⟨k1, k2, k3, k4, k5, k6⟩ := addLoop_main R hq hq.1 hp h0
      obtain ⟨l1, l2, l3, l4⟩ := setH_keeps hh
      refine ⟨⟨by rw [l1]; exact k1.1, by rw [l1, l2]; exact k1.2.1, by rw [l2]; exact k1.2.2⟩, l1.trans k2, l3.trans k3, l4, k5, fun c => ?_⟩
      rw [held_congr l1 l2, k6 c]
      split
      · rfl
      · rename_i hc
        have : held q c = 0 := by unfold held; rw [lookup_zip_none hc]; rfl
        rw [this, add_zero, (gp c).1]

/-- **C148 (scaling).** Multiplying a package with a number that is not negative multiplies every mass, rounded once, and keeps material, temperature and pressure; the enthalpy is computed anew. -/
theorem C148_scale (R : IEEE rnd u η) (hS : ∀ l, Adds rnd l (S l)) (p r : Package) (k : ℚ) (hp : Sound rnd p) (hh : mul rnd S h p k = .ok r) :
    0 ≤ k ∧ Sound rnd r ∧ r.mat = p.mat ∧ r.T = p.T ∧ r.P = p.P ∧ (∀ c, held r c = rnd (held p c * k)) ∧ Matches u η h r := by
  unfold mul at hh
  split at hh
  · cases hh
  · rename_i hk
    have k0 := not_lt.1 hk
    obtain ⟨k1, k2, k3, k4⟩ := held_new hh
    have s : Sound rnd r := ⟨by rw [k1]; exact hp.1, by rw [k1, k2, List.length_map]; exact hp.2.1, by rw [k2]; exact PsdFloat.Proofs.floats_map R hp.2.2 k0⟩
    refine ⟨k0, s, k1, k4, k3, fun c => ?_, matches_new R hS hh s⟩
    rw [held_congr (q := ⟨p.mat, p.masses.map (fun y => rnd (y * k)), 0, 0, 0⟩) k1 k2, held_map (f := fun y => rnd (y * k)) (by rw [zero_mul, R.zero]) 0 0 0 p.P p.T p.H]

/-- **C148 (a hot tuple).** Adding a mass of a compound of another temperature: the mass of that compound is rounded once, the others are as they were, the enthalpy grows by that of the mass at its own temperature. -/
theorem C148_tuple3 (R : IEEE rnd u η) (p r : Package) (c : Str) (x T : ℚ) (hp : Sound rnd p) (hx : rnd x = x ∧ 0 ≤ x) (hh : addTuple3 rnd S h solve p c x T = .ok r) :
    Sound rnd r ∧ r.mat = p.mat ∧ r.P = p.P ∧ c ∈ p.mat.compounds ∧ (∀ d, held r d = if d = c then rnd (held p c + x) else held p d) ∧ r.H = rnd (p.H + rnd (spec h c T * x)) := by
  unfold addTuple3 at hh
  split at hh
  · cases hh
  · rename_i i hi
    split at hh
    · cases hh
    · rename_i v hv
      split at hh
      · cases hh
      · rename_i r0 h0
        split at hh
        · cases hh
        · rename_i y hy
          split at hh
          · cases hh
          · rename_i r1 h1
            cases hh
            unfold mul at h0
            rw [if_neg (by norm_num)] at h0
            obtain ⟨k1, k2, k3, k4⟩ := held_new h0
            obtain ⟨l1, l2, l3, l4⟩ := setH_keeps h1
            dsimp only at l1 l2 l3 l4
            have e : p.masses.map (fun x => rnd (x * 1)) = p.masses := by
              conv_rhs => rw [← List.map_id p.masses]
              apply List.map_congr_left
              intro z hz
              rw [mul_one, (hp.2.2 z hz).1]; rfl
            rw [e] at k2
            rw [k2] at hy l2
            have hlt : i < p.masses.length := (List.getElem?_eq_some_iff.1 hy).1
            have hyf := hp.2.2 y (List.mem_of_getElem? hy)
            refine ⟨⟨by dsimp only; rw [l1, k1]; exact hp.1, by dsimp only; rw [l1, l2, k1, List.length_set]; exact hp.2.1, by dsimp only; rw [l2]; exact PsdFloat.Proofs.floats_set hp.2.2 ⟨R.idem _, R.nonneg (add_nonneg hyf.2 hx.2)⟩⟩, l1.trans k1, rfl, index_mem hi, fun d => ?_, ?_⟩
            · rw [held_congr (p := { r1 with P := p.P }) (q := ⟨p.mat, p.masses.set i (rnd (y + x)), 0, 0, 0⟩) (l1.trans k1) l2, held_set (index_ok hi) hlt _ _ _ _ p.P p.T p.H, held_at (index_ok hi) hy]
            · dsimp only
              rw [l4]
              unfold thermoH at hv
              split at hv
              · cases hv
              · rename_i w hw
                cases hv
                unfold spec
                rw [hw]

/-! ## A plant -/

/-- **C148 (plant).** However often the packages of a plant are split and joined, the mass of every compound in it changes by at most about two roundings of it for each step. -/
theorem C148_plant (R : IEEE rnd u η) (hS : ∀ l, Adds rnd l (S l)) (mats : List Material) (hid : ∀ m ∈ mats, ∀ m' ∈ mats, m.ident = m'.ident → m = m')
    (ps qs : List Package) (n : ℕ) (hp : ∀ p ∈ ps, p.mat ∈ mats ∧ Sound rnd p)
    (hh : Plant.RunN (fun p p' r => ∃ a, PartOk rnd a ∧ extract rnd S h p a = (.ok r, p')) (fun p q r => addPackage rnd S h solve p q = .ok r) ps n qs) :
    (∀ q ∈ qs, q.mat ∈ mats ∧ Sound rnd q) ∧
    ∀ c, |(qs.map (held · c)).sum - (ps.map (held · c)).sum| ≤ ((1 + (2 * u + u ^ 2)) ^ n - 1) * (ps.map (held · c)).sum + n * (2 * η) * (1 + (2 * u + u ^ 2)) ^ n := by
  have u0 := R.u0
  have η0 := R.η0
  have main : ∀ c, (∀ q ∈ qs, q.mat ∈ mats ∧ Sound rnd q) ∧
      |(qs.map (held · c)).sum - (ps.map (held · c)).sum| ≤ ((1 + (2 * u + u ^ 2)) ^ n - 1) * (ps.map (held · c)).sum + n * (2 * η) * (1 + (2 * u + u ^ 2)) ^ n := by
    intro c
    refine Plant.RunN.drift (I := fun p => p.mat ∈ mats ∧ Sound rnd p) (μ := (held · c)) (w := 2 * u + u ^ 2) (e := 2 * η) (by positivity) (by positivity) (fun p hp => (held_good R hp.2 c).2) ?_ ?_ hp hh
    · rintro p p' r ⟨i1, i3⟩ ⟨a, ha, he⟩
      obtain ⟨h1, h2, h3, h4, -, -, -, h7⟩ := C148_split R hS p p' r a i3 ha he
      refine ⟨⟨h4 ▸ i1, h2⟩, ⟨h3 ▸ i1, h1⟩, ?_⟩
      have := (h7 c).2.2.2.2
      rwa [add_comm (held r c)] at this
    · rintro p q r ⟨i1, i3⟩ ⟨j1, j3⟩ he
      have hm : p.mat = q.mat ∨ p.mat.ident ≠ q.mat.ident := by
        by_cases hi : p.mat.ident = q.mat.ident
        · exact .inl (hid _ i1 _ j1 hi)
        · exact .inr hi
      obtain ⟨h1, h2, -, -, -, h4⟩ := C148_join R p q r hm i3 j3 he
      refine ⟨⟨h2 ▸ i1, h1⟩, (h4 c).2.trans ?_⟩
      have a0 := add_nonneg (held_good R i3 c).2 (held_good R j3 c).2
      nlinarith [mul_nonneg u0 a0, mul_nonneg (mul_nonneg u0 u0) a0]
  exact ⟨(main []).1, fun c => (main c).2⟩

theorem tol_mono_n (u0 : 0 ≤ u) (η0 : 0 ≤ η) {n N : ℕ} (hn : n ≤ N) {A : ℚ} (A0 : 0 ≤ A) : tol u η n A ≤ tol u η N A := by
  unfold tol
  have h1 : (1 + u) ^ (n + 1) ≤ (1 + u) ^ (N + 1) := pow_le_pow_right₀ (by linarith) (by omega)
  have h2 : (1 + u) ^ n ≤ (1 + u) ^ N := pow_le_pow_right₀ (by linarith) hn
  have h3 : (n : ℚ) ≤ N := by exact_mod_cast hn
  have h4 : (n : ℚ) * (1 + u) ^ n ≤ N * (1 + u) ^ N := mul_le_mul h3 h2 (by positivity) (by positivity)
  have h5 := mul_le_mul_of_nonneg_right h4 η0
  have h6 := mul_le_mul_of_nonneg_right h1 A0
  linarith

theorem sum_le_len {f : Str → ℚ} {b : ℚ} : ∀ {l : List Str}, (∀ c ∈ l, f c ≤ b) → (l.map f).sum ≤ l.length * b
  | [], _ => by simp
  | c :: l, hl => by
    have ih := sum_le_len (l := l) (fun d hd => hl d (List.mem_cons_of_mem _ hd))
    have := hl c List.mem_cons_self
    simp only [List.map_cons, List.sum_cons, List.length_cons]
    push_cast
    linarith

theorem spec_le {B : ℚ} (B0 : 0 ≤ B) (hB : ∀ c T v, h c T = .ok v → |v| ≤ B) (c : Str) (T : ℚ) : |spec h c T| ≤ B := by
  unfold spec
  split
  · rename_i v hv; exact hB c T v hv
  · rw [abs_zero]; exact B0

/-- **C148 (energy of a plant).** If the solver is accurate within `ε`, no compound has more than `B` of enthalpy per kilogram, no material more than `N` compounds and there is at first no more than
`X` of any compound, then `n` splits and joins change the enthalpy of the plant by at most `n` times `stepH`, whose terms are `ε` and roundings. -/
theorem C148_plant_energy (R : IEEE rnd u η) (hS : ∀ l, Adds rnd l (S l)) (mats : List Material) (hid : ∀ m ∈ mats, ∀ m' ∈ mats, m.ident = m'.ident → m = m')
    (B ε X : ℚ) (N : ℕ) (B0 : 0 ≤ B) (hB : ∀ c T v, h c T = .ok v → |v| ≤ B) (ε0 : 0 ≤ ε) (hε : SolvesTo h solve ε) (hN : ∀ m ∈ mats, m.compounds.length ≤ N)
    (ps qs : List Package) (n : ℕ) (hp : ∀ p ∈ ps, p.mat ∈ mats ∧ Sound rnd p) (hX : ∀ c, (ps.map (held · c)).sum ≤ X)
    (hm : ∀ p ∈ ps, |p.H - exactH h p p.T| ≤ ε + tol u η N (capacity u η B N X n))
    (hh : Plant.RunN (fun p p' r => ∃ a, PartOk rnd a ∧ extract rnd S h p a = (.ok r, p')) (fun p q r => addPackage rnd S h solve p q = .ok r) ps n qs) :
    |(qs.map Package.H).sum - (ps.map Package.H).sum| ≤ n * stepH u η ε B N (capacity u η B N X n) := by
  have u0 := R.u0
  have η0 := R.η0
  have w0 : 0 ≤ 2 * u + u ^ 2 := by positivity
  have X0 : 0 ≤ X := by
    refine le_trans ?_ (hX [])
    exact List.sum_nonneg (fun x hx => by obtain ⟨p, hp', rfl⟩ := List.mem_map.1 hx; exact (held_good R (hp p hp').2 []).2)
  -- the state after `k ≤ n` steps
  have mass : ∀ {k : ℕ} {l : List Package}, k ≤ n → Plant.RunN (fun p p' r => ∃ a, PartOk rnd a ∧ extract rnd S h p a = (.ok r, p')) (fun p q r => addPackage rnd S h solve p q = .ok r) ps k l →
      ∀ q ∈ l, (q.mat ∈ mats ∧ Sound rnd q) ∧ ∀ c, held q c ≤ (1 + (2 * u + u ^ 2)) ^ n * (X + n * (2 * η)) := by
    intro k l hk hr q hq
    obtain ⟨s1, s2⟩ := C148_plant R hS mats hid ps l k hp hr
    refine ⟨s1 q hq, fun c => ?_⟩
    have b1 : held q c ≤ (l.map (held · c)).sum := by
      refine List.single_le_sum ?_ _ (List.mem_map.2 ⟨q, hq, rfl⟩)
      intro x hx
      obtain ⟨y, hy, rfl⟩ := List.mem_map.1 hx
      exact (held_good R (s1 y hy).2 c).2
    have b2 := (abs_le.1 (s2 c)).2
    have b3 := hX c
    have p1 : (1 + (2 * u + u ^ 2)) ^ k ≤ (1 + (2 * u + u ^ 2)) ^ n := pow_le_pow_right₀ (by linarith) hk
    have p0 : 0 ≤ (1 + (2 * u + u ^ 2)) ^ k := by positivity
    have k1 : (k : ℚ) ≤ n := by exact_mod_cast hk
    generalize (ps.map (held · c)).sum = M at *
    have e : held q c ≤ (1 + (2 * u + u ^ 2)) ^ k * (M + k * (2 * η)) := by linarith
    refine e.trans (mul_le_mul p1 ?_ ?_ (p0.trans p1))
    · have := mul_le_mul_of_nonneg_right k1 (show 0 ≤ 2 * η by linarith)
      linarith
    · have q0 := (held_good R (s1 q hq).2 c).2
      by_contra hneg
      have hneg := not_le.1 hneg
      have : 0 < (1 + (2 * u + u ^ 2)) ^ k := by positivity
      have := mul_neg_of_pos_of_neg this hneg
      linarith
  -- sizes
  have size : ∀ q : Package, q.mat ∈ mats → Sound rnd q → (∀ c, held q c ≤ (1 + (2 * u + u ^ 2)) ^ n * (X + n * (2 * η))) → ∀ T, sizeH h q T ≤ capacity u η B N X n := by
    intro q h1 h2 h3 T
    unfold sizeH capacity
    have Y0 : 0 ≤ (1 + (2 * u + u ^ 2)) ^ n * (X + n * (2 * η)) := by positivity
    refine (sum_le_len (b := B * ((1 + (2 * u + u ^ 2)) ^ n * (X + n * (2 * η)))) (fun c _ => mul_le_mul (spec_le B0 hB c T) (h3 c) (held_good R h2 c).2 B0)).trans ?_
    have hlen : (q.mat.compounds.length : ℚ) ≤ N := by exact_mod_cast hN _ h1
    have := mul_le_mul_of_nonneg_right hlen (mul_nonneg B0 Y0)
    linarith
  have A0 : 0 ≤ capacity u η B N X n := by unfold capacity; positivity
  have exactB : ∀ (q : Package), Sound rnd q → ∀ T, |exactH h q T| ≤ sizeH h q T := by
    intro q hq T
    unfold exactH sizeH
    generalize q.mat.compounds = l
    induction l with
    | nil => simp
    | cons c l ih =>
      simp only [List.map_cons, List.sum_cons]
      refine (abs_add_le _ _).trans ?_
      rw [abs_mul, abs_of_nonneg (held_good R hq c).2]
      linarith
  have tolA : ∀ q : Package, q.mat ∈ mats → Sound rnd q → (∀ c, held q c ≤ (1 + (2 * u + u ^ 2)) ^ n * (X + n * (2 * η))) → ∀ T, tol u η q.mat.compounds.length (sizeH h q T) ≤ tol u η N (capacity u η B N X n) :=
    fun q h1 h2 h3 T => (tol_mono u0 (size q h1 h2 h3 T)).trans (tol_mono_n u0 η0 (hN _ h1) A0)
  have t0 := tol_nonneg u0 η0 N A0
  -- the run
  suffices main : ∀ {k : ℕ} {l : List Package}, Plant.RunN (fun p p' r => ∃ a, PartOk rnd a ∧ extract rnd S h p a = (.ok r, p')) (fun p q r => addPackage rnd S h solve p q = .ok r) ps k l → k ≤ n →
      (∀ q ∈ l, |q.H - exactH h q q.T| ≤ ε + tol u η N (capacity u η B N X n)) ∧ |(l.map Package.H).sum - (ps.map Package.H).sum| ≤ k * stepH u η ε B N (capacity u η B N X n) from (main hh le_rfl).2
  intro k l hr
  induction hr with
  | start => intro _; exact ⟨hm, by simp⟩
  | @split k qs rest p p' r hr hperm hs ih =>
    intro hk
    obtain ⟨i1, i2⟩ := ih (by omega)
    have ms := mass (by omega) hr
    have hpq : p ∈ qs := hperm.mem_iff.2 List.mem_cons_self
    obtain ⟨⟨pm, psnd⟩, pX⟩ := ms p hpq
    obtain ⟨a, ha, he⟩ := hs
    obtain ⟨s1, s2, s3, s4, -, -, -, s8⟩ := C148_split R hS p p' r a psnd ha he
    obtain ⟨m1, m2, m3⟩ := C148_matches R hS p p' r a psnd ha he
    have en := C148_energy R hS p p' r a _ psnd ha (i1 p hpq) he
    have hr' : |r.H - exactH h r r.T| ≤ ε + tol u η N (capacity u η B N X n) := by
      have := tolA r (s3 ▸ pm) s1 (fun c => (s8 c).2.1.trans (pX c)) r.T
      unfold Matches at m1
      linarith
    have hp' : |p'.H - exactH h p' p'.T| ≤ ε + tol u η N (capacity u η B N X n) := by
      by_cases k : Known p a
      · have := tolA p' (s4 ▸ pm) s2 (fun c => (s8 c).2.2.2.1.trans (pX c)) p'.T
        have m2 := m2 k
        unfold Matches at m2
        linarith
      · rw [(m3 k).1]; exact i1 p hpq
    constructor
    · intro q hq
      simp only [List.mem_cons] at hq
      rcases hq with rfl | rfl | hq
      · exact hp'
      · exact hr'
      · exact i1 q (hperm.mem_iff.2 (List.mem_cons_of_mem _ hq))
    · rw [(hperm.map Package.H).sum_eq] at i2
      simp only [List.map_cons, List.sum_cons] at i2 ⊢
      have sz : sizes h p.mat p.T ≤ N * B := by
        unfold sizes
        refine (sum_le_len (b := B) (fun c _ => spec_le B0 hB c p.T)).trans ?_
        exact mul_le_mul_of_nonneg_right (by exact_mod_cast hN _ pm) B0
      have b1 := tolA p pm psnd pX p.T
      have b2 := mul_le_mul_of_nonneg_left (size p pm psnd pX p.T) w0
      have b3 := mul_le_mul_of_nonneg_left sz (show 0 ≤ 2 * η by linarith)
      have b4 : 0 ≤ 2 * u * (capacity u η B N X n + (ε + tol u η N (capacity u η B N X n))) := by positivity
      have st : |r.H + p'.H - p.H| ≤ stepH u η ε B N (capacity u η B N X n) := by
        unfold stepH
        linarith
      push_cast
      have tri := abs_add_le (r.H + p'.H - p.H) (p.H + (rest.map Package.H).sum - (ps.map Package.H).sum)
      have e : p'.H + (r.H + (rest.map Package.H).sum) - (ps.map Package.H).sum = (r.H + p'.H - p.H) + (p.H + (rest.map Package.H).sum - (ps.map Package.H).sum) := by ring
      rw [e]
      linarith
  | @join k qs rest p q r hr hperm hs ih =>
    intro hk
    obtain ⟨i1, i2⟩ := ih (by omega)
    have ms := mass (by omega) hr
    have hpq : p ∈ qs := hperm.mem_iff.2 List.mem_cons_self
    have hqq : q ∈ qs := hperm.mem_iff.2 (List.mem_cons_of_mem _ List.mem_cons_self)
    obtain ⟨⟨pm, psnd⟩, pX⟩ := ms p hpq
    obtain ⟨⟨qm, qsnd⟩, qX⟩ := ms q hqq
    have hmm : p.mat = q.mat ∨ p.mat.ident ≠ q.mat.ident := by
      by_cases hi : p.mat.ident = q.mat.ident
      · exact .inl (hid _ pm _ qm hi)
      · exact .inr hi
    obtain ⟨-, -, -, hH, -⟩ := C148_join R p q r hmm psnd qsnd hs
    obtain ⟨T, hT⟩ := C148_join_T p q r hs
    have hr' : |r.H - exactH h r r.T| ≤ ε + tol u η N (capacity u η B N X n) := by
      have := hε _ _ _ _ _ hT r.P
      rw [abs_sub_comm] at this
      exact le_trans this (by linarith)
    constructor
    · intro x hx
      rcases List.mem_cons.1 hx with rfl | hx
      · exact hr'
      · exact i1 x (hperm.mem_iff.2 (List.mem_cons_of_mem _ (List.mem_cons_of_mem _ hx)))
    · rw [(hperm.map Package.H).sum_eq] at i2
      simp only [List.map_cons, List.sum_cons] at i2 ⊢
      have cap : ∀ x : Package, x.mat ∈ mats → Sound rnd x → (∀ c, held x c ≤ (1 + (2 * u + u ^ 2)) ^ n * (X + n * (2 * η))) → |x.H - exactH h x x.T| ≤ ε + tol u η N (capacity u η B N X n) →
          |x.H| ≤ capacity u η B N X n + (ε + tol u η N (capacity u η B N X n)) := by
        intro x h1 h2 h3 h4
        have a1 := (exactB x h2 x.T).trans (size x h1 h2 h3 x.T)
        have a2 := abs_add_le (x.H - exactH h x x.T) (exactH h x x.T)
        rw [sub_add_cancel] at a2
        linarith
      have c1 := cap p pm psnd pX (i1 p hpq)
      have c2 := cap q qm qsnd qX (i1 q hqq)
      have er := R.err (p.H + q.H)
      rw [← hH] at er
      have c3 := mul_le_mul_of_nonneg_left ((abs_add_le p.H q.H).trans (add_le_add c1 c2)) u0
      have b2 : 0 ≤ (2 * u + u ^ 2) * capacity u η B N X n := by positivity
      have b3 : 0 ≤ 2 * η * (N * B) := by positivity
      have st : |r.H - (p.H + q.H)| ≤ stepH u η ε B N (capacity u η B N X n) := by
        unfold stepH
        linarith
      push_cast
      have tri := abs_add_le (r.H - (p.H + q.H)) (p.H + (q.H + (rest.map Package.H).sum) - (ps.map Package.H).sum)
      have e : r.H + (rest.map Package.H).sum - (ps.map Package.H).sum = (r.H - (p.H + q.H)) + (p.H + (q.H + (rest.map Package.H).sum) - (ps.map Package.H).sum) := by ring
      rw [e]
      linarith

/-! ## Examples -/

/-- Two compounds. -/
def mat2 : Material := ⟨1, ["Fe[BCC]".toList, "C[Gr]".toList]⟩
/-- A material with one of them. -/
def mat1 : Material := ⟨2, ["C[Gr]".toList]⟩
/-- Enthalpies per kilogram. -/
def h2 : Str → ℚ → Res ℚ := fun c T => if c = "Fe[BCC]".toList then .ok (rnd64 (T / 7000)) else if c = "C[Gr]".toList then .ok (rnd64 (-1 / 3)) else .error .exception
/-- A package of tenths, which floats do not have. -/
def pkg2 : Package := ⟨mat2, [rnd64 (1/10), rnd64 (7/10)], 1, 25, match calcH rnd64 h2 mat2 [rnd64 (1/10), rnd64 (7/10)] 25 with | .ok v => v | .error _ => 0⟩
/-- A package of carbon. -/
def pkg1 : Package := ⟨mat1, [rnd64 (1/10)], 1, 100, rnd64 (-1/30)⟩

theorem pkg2_sound : Sound rnd64 pkg2 := by
  refine ⟨by decide +kernel, rfl, ?_⟩
  intro x hx
  simp only [pkg2, List.mem_cons, List.not_mem_nil, or_false] at hx
  rcases hx with rfl | rfl
  · exact ⟨ieee64.idem _, by decide +kernel⟩
  · exact ⟨ieee64.idem _, by decide +kernel⟩

theorem pkg1_sound : Sound rnd64 pkg1 := by
  refine ⟨by decide +kernel, rfl, ?_⟩
  intro x hx
  simp only [pkg1, List.mem_cons, List.not_mem_nil, or_false] at hx
  subst hx
  exact ⟨ieee64.idem _, by decide +kernel⟩

/-- Part of the package by mass. -/
def half : Res Package × Package := extract rnd64 (leftSum rnd64) h2 pkg2 (.mass (rnd64 (1/10)))

/-- The hypotheses of the theorems hold of these packages and extractions: parts are taken out in all three ways, and of a compound the material does not have; packages of one and of two materials are added. -/
example : Sound rnd64 pkg2 ∧ Sound rnd64 pkg1 ∧ (∀ l, Adds rnd64 l (leftSum rnd64 l)) ∧ PartOk rnd64 (.mass (rnd64 (1/10))) ∧ half.1.toBool = true ∧
    (extract rnd64 (leftSum rnd64) h2 pkg2 (.compound "C[Gr]".toList)).1.toBool = true ∧ (extract rnd64 (leftSum rnd64) h2 pkg2 (.compound "H2O".toList)).1.toBool = true ∧
    (extract rnd64 (leftSum rnd64) h2 pkg2 (.ofCompound "C[Gr]".toList (rnd64 (1/10)))).1.toBool = true ∧
    (addPackage rnd64 (leftSum rnd64) h2 (fun _ _ _ _ => .ok 30) pkg2 pkg2).toBool = true ∧ (addPackage rnd64 (leftSum rnd64) h2 (fun _ _ _ _ => .ok 30) pkg2 pkg1).toBool = true ∧
    (addTuple3 rnd64 (leftSum rnd64) h2 (fun _ _ _ _ => .ok 30) pkg2 "C[Gr]".toList (rnd64 (1/10)) 50).toBool = true ∧ (mul rnd64 (leftSum rnd64) h2 pkg2 (rnd64 (1/3))).toBool = true ∧
    mass (leftSum rnd64) pkg2 ≠ 0 ∧ rnd64 (1/10) ≤ mass (leftSum rnd64) pkg2 ∧ ((mat2.compounds.length + 2 : ℕ) : ℚ) * pow2 (-53) < 1 := by
  refine ⟨pkg2_sound, pkg1_sound, fun l => (C139_orders l).1, ⟨ieee64.idem _, by decide +kernel⟩, ?_, ?_, ?_, ?_, ?_, ?_, ?_, ?_, ?_, ?_, ?_⟩ <;> decide +kernel

/-- Enthalpies between 0 and 100 degrees only. -/
def h3 : Str → ℚ → Res ℚ := fun c T => if 0 ≤ T ∧ T ≤ 100 then (if c = "Fe[BCC]".toList then .ok (T / 7000) else .ok (-1 / 3)) else .error .exception

/-- A solver that knows one answer, and checks it. -/
def solve3 : Material → List ℚ → ℚ → ℚ → Res ℚ := fun m a _ H => if |exactH h3 ⟨m, a, 1, 25, H⟩ 25 - H| ≤ 1 / 1000 then .ok 25 else .error .exception

/-- The hypotheses of the theorem on the energy of a plant hold of this solver and these enthalpies. -/
example : SolvesTo h3 solve3 (1 / 1000) ∧ (∀ c T v, h3 c T = .ok v → |v| ≤ 1) := by
  constructor
  · intro m a T H t ht P
    unfold solve3 at ht
    split at ht
    · rename_i hle; cases ht; exact hle
    · cases ht
  · intro c T v hv
    unfold h3 at hv
    split at hv
    · rename_i hT
      split at hv
      · cases hv
        rw [abs_of_nonneg (by linarith [hT.1])]
        linarith [hT.2]
      · cases hv; norm_num
    · cases hv

/-- And there is a run: a part is taken out and added again. -/
example : ∃ qs, Plant.RunN (fun p p' r => ∃ a, PartOk rnd64 a ∧ extract rnd64 (leftSum rnd64) h3 p a = (.ok r, p')) (fun p q r => addPackage rnd64 (leftSum rnd64) h3 solve3 p q = .ok r) [pkg2] 2 qs := by
  have e : ∃ r p' s, extract rnd64 (leftSum rnd64) h3 pkg2 (.mass (rnd64 (1/10))) = (.ok r, p') ∧ addPackage rnd64 (leftSum rnd64) h3 solve3 p' r = .ok s := by
    have d : (match extract rnd64 (leftSum rnd64) h3 pkg2 (.mass (rnd64 (1/10))) with | (.ok r, p') => (addPackage rnd64 (leftSum rnd64) h3 solve3 p' r).toBool | (.error _, _) => false) = true := by decide +kernel
    split at d
    · rename_i r p' he
      cases hs : addPackage rnd64 (leftSum rnd64) h3 solve3 p' r with
      | error e => rw [hs] at d; cases d
      | ok s => exact ⟨r, p', s, he, hs⟩
    · cases d
  obtain ⟨r, p', s, he, hs⟩ := e
  refine ⟨[s], ?_⟩
  refine Plant.RunN.join (p := p') (q := r) (Plant.RunN.split (p := pkg2) .start (List.Perm.refl _) ⟨.mass (rnd64 (1/10)), ⟨ieee64.idem _, by decide +kernel⟩, he⟩) (List.Perm.refl _) hs

/-- **C148 (not exact).** Without the roundings the property is false: of this package the parts do not add up to the mass there was, and adding them up again gives another enthalpy. -/
theorem C148_inexact : ∃ r p', extract rnd64 (leftSum rnd64) h2 pkg2 (.mass (rnd64 (1/10))) = (.ok r, p') ∧ (∃ c ∈ mat2.compounds, held r c + held p' c ≠ held pkg2 c) ∧ r.H + p'.H ≠ pkg2.H := by
  have e : half.1.toBool = true := by decide +kernel
  cases hr : half.1 with
  | error e' => rw [hr] at e; cases e
  | ok r =>
    refine ⟨r, half.2, Prod.ext hr rfl, ?_⟩
    have k : ∀ r, half.1 = .ok r → (∃ c ∈ mat2.compounds, held r c + held half.2 c ≠ held pkg2 c) ∧ r.H + half.2.H ≠ pkg2.H := by
      have d : (match half.1 with | .ok r => (mat2.compounds.any fun c => held r c + held half.2 c ≠ held pkg2 c) && (r.H + half.2.H ≠ pkg2.H) | .error _ => true) = true := by decide +kernel
      intro r hr
      rw [hr] at d
      dsimp only at d
      rw [Bool.and_eq_true, List.any_eq_true] at d
      obtain ⟨⟨c, hc, h1⟩, h2⟩ := d
      exact ⟨⟨c, hc, of_decide_eq_true h1⟩, of_decide_eq_true h2⟩
    exact k r hr

end Auxi.ThermoFloat.Props
