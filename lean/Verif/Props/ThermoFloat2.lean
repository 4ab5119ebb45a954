import Verif.Props.ThermoFloat

/-! # C148: extracting the compounds of another material -/
namespace Auxi.ThermoFloat.Props
open Auxi Auxi.ThermoFloat Auxi.ThermoFloat.Spec Auxi.ThermoFloat.Proofs Auxi.Rounding
open Auxi.PsdFloat.Spec (Adds)
open Auxi.PsdFloat.Props (leftSum)

variable {rnd : ℚ → ℚ} {S : List ℚ → ℚ} {h : Str → ℚ → Res ℚ} {u η : ℚ}

theorem compoundMass_held {p : Package} {c : Str} {x : ℚ} (hx : compoundMass p c = .ok x) : x = held p c := by
  unfold compoundMass at hx
  split at hx
  · split at hx
    · cases hx
    · rename_i i hi
      split at hx
      · rename_i y hy; cases hx; exact (held_at (index_ok hi) hy).symm
      · cases hx
  · rename_i hc
    cases hx
    unfold held
    rw [lookup_zip_none hc]; rfl

theorem materialLoop_main (R : IEEE rnd u η) (hS : ∀ l, Adds rnd l (S l)) : ∀ {l : List Str} {r p r' p' : Package}, Sound rnd r → Sound rnd p →
    materialLoop rnd S h l r p = (.ok r', p') →
    Sound rnd r' ∧ Sound rnd p' ∧ r'.mat = r.mat ∧ p'.mat = p.mat ∧ r'.T = p.T ∧ r'.P = r.P ∧ p'.T = p.T ∧ p'.P = p.P ∧ Matches u η h r' ∧
    ((∃ c ∈ l, c ∈ p.mat.compounds) → Matches u η h p') ∧ ((∀ c ∈ l, c ∉ p.mat.compounds) → p' = p) ∧
    (l.Nodup → ∀ d, held r' d = (if d ∈ l then rnd (held r d + held p d) else held r d) ∧ held p' d = (if d ∈ l then 0 else held p d))
  | [], r, p, r', p', hr, hp, hh => by
    unfold materialLoop at hh
    split at hh
    · cases hh
    · rename_i o q hq
      cases hh
      obtain ⟨k1, k2, k3, k4⟩ := setT_keeps hq
      have s : Sound rnd r' := ⟨by rw [k1]; exact hr.1, by rw [k1, k2]; exact hr.2.1, by rw [k2]; exact hr.2.2⟩
      exact ⟨s, hp, k1, rfl, k4, k3, rfl, rfl, matches_setT R hq s, fun ⟨c, hc, _⟩ => by (cases hc), fun _ => rfl, fun _ d => ⟨by simp [held_congr k1 k2], by simp⟩⟩
  | c :: l, r, p, r', p', hr, hp, hh => by
    unfold materialLoop at hh
    split at hh
    · cases hh
    · rename_i x hx
      have hx := compoundMass_held hx
      have gx := held_good R hp c
      rw [← hx] at gx
      split at hh
      · cases hh
      · rename_i r1 h1
        split at hh
        · cases hh
        · rename_i y p1 h2
          obtain ⟨t1, t2, t3, t4, -, t6, -⟩ := C148_tuple R r r1 c x hr gx h1
          obtain ⟨s1, s2, s3, s4, s5, s6, s7, s8⟩ := C148_split R hS p p1 y (.compound c) hp trivial h2
          obtain ⟨m1, m2, m3⟩ := C148_matches R hS p p1 y (.compound c) hp trivial h2
          have e := (C148_compound R hS p p1 y c 0 hp).1 h2
          obtain ⟨i1, i2, i3, i4, i5, i6, i7, i8, i9, i10, i11, i12⟩ := materialLoop_main R hS t1 s2 hh
          refine ⟨i1, i2, i3.trans t2, i4.trans s4, i5.trans s5, i6.trans t4, i7.trans s5, i8.trans s6, i9, ?_, ?_, fun hn d => ?_⟩
          · rintro ⟨d, hd, hdm⟩
            by_cases ex : ∃ d ∈ l, d ∈ p.mat.compounds
            · exact i10 (by rw [s4]; exact ex)
            · have none : ∀ d ∈ l, d ∉ p.mat.compounds := fun d hd hm => ex ⟨d, hd, hm⟩
              have hc : d = c := by
                rcases List.mem_cons.1 hd with hd | hd
                · exact hd
                · exact absurd hdm (none d hd)
              subst hc
              rw [i11 (by rw [s4]; exact none)]
              exact m2 hdm
          · intro hno
            rw [i11 (by rw [s4]; exact fun d hd => hno d (List.mem_cons_of_mem _ hd))]
            exact (m3 (hno c List.mem_cons_self)).1
          · obtain ⟨n1, n2⟩ := List.nodup_cons.1 hn
            obtain ⟨j1, j2⟩ := i12 n2 d
            rw [t6 d, (e d).2] at j1
            rw [(e d).2] at j2
            rw [j1, j2]
            by_cases hd : d = c
            · subst hd
              simp [n1, hx]
            · simp [hd]

/-- **C148 (a material).** Extracting another material takes all of every compound of it out of the package, exactly, and gives it, exactly, as a package of that material at the package's temperature and 1 atm, with the
enthalpy of its masses at that temperature up to the roundings of computing it; every other compound keeps its mass.  If the package has none of these compounds it is left as it was. -/
theorem C148_material (R : IEEE rnd u η) (hS : ∀ l, Adds rnd l (S l)) (p p' r : Package) (m : Material) (hp : Sound rnd p) (hm : m.compounds.Nodup)
    (hh : extractMaterial rnd S h p m = (.ok r, p')) :
    Sound rnd r ∧ Sound rnd p' ∧ r.mat = m ∧ p'.mat = p.mat ∧ r.T = p.T ∧ r.P = 1 ∧ p'.T = p.T ∧ p'.P = p.P ∧
    (∀ c, held r c = (if c ∈ m.compounds then held p c else 0) ∧ held p' c = (if c ∈ m.compounds then 0 else held p c)) ∧
    Matches u η h r ∧ ((∃ c ∈ m.compounds, c ∈ p.mat.compounds) → Matches u η h p') ∧ ((∀ c ∈ m.compounds, c ∉ p.mat.compounds) → p' = p) := by
  unfold extractMaterial at hh
  rw [empty_eq R hS] at hh
  dsimp only at hh
  have s0 : Sound rnd ⟨m, List.replicate m.compounds.length 0, 1, 25, 0⟩ := ⟨hm, by simp, fun q hq => by rw [List.eq_of_mem_replicate hq]; exact ⟨R.zero, le_rfl⟩⟩
  obtain ⟨i1, i2, i3, i4, i5, i6, i7, i8, i9, i10, i11, i12⟩ := materialLoop_main R hS s0 hp hh
  refine ⟨i1, i2, i3, i4, i5, i6, i7, i8, fun c => ?_, i9, i10, i11⟩
  obtain ⟨j1, j2⟩ := i12 hm c
  rw [held_zeros, zero_add, (held_good R hp c).1] at j1
  exact ⟨j1, j2⟩

/-- **C148 (a material, when it succeeds).** If enthalpies are known for the compounds of the material at 25 °C and at the package's temperature, and for the package's own compounds at its temperature, then the extraction succeeds. -/
theorem C148_material_succeeds (R : IEEE rnd u η) (hS : ∀ l, Adds rnd l (S l)) (p : Package) (m : Material) (hp : Sound rnd p)
    (h1 : ∀ c ∈ m.compounds, (∃ v, h c 25 = .ok v) ∧ ∃ v, h c p.T = .ok v) (h2 : ∀ c ∈ p.mat.compounds, ∃ v, h c p.T = .ok v) :
    ∃ r p', extractMaterial rnd S h p m = (.ok r, p') := by
  unfold extractMaterial
  rw [empty_eq R hS]
  dsimp only
  suffices X : ∀ (l : List Str) (r q : Package), (∀ c ∈ l, c ∈ m.compounds) → r.mat = m → r.masses.length = m.compounds.length → r.T = 25 → q.mat = p.mat → q.T = p.T → q.masses.length = p.mat.compounds.length →
      ∃ r' p', materialLoop rnd S h l r q = (.ok r', p') from X _ _ _ (fun c hc => hc) rfl (by simp) rfl rfl rfl hp.2.1
  intro l
  induction l with
  | nil =>
    intro r q _ r1 r2 r3 q1 q2 q3
    unfold materialLoop setT calcH
    obtain ⟨v, hv⟩ := hLoop_ok (rnd := rnd) (m := r.mat) (a := r.masses) (T := q.T) (by rw [r2, r1]) (by rw [r1, q2]; exact fun c hc => (h1 c hc).2) r.mat.compounds 0 (fun c hc => hc)
    rw [hv]
    exact ⟨_, _, rfl⟩
  | cons c l ih =>
    intro r q hl r1 r2 r3 q1 q2 q3
    have hc := hl c List.mem_cons_self
    obtain ⟨x, hx⟩ : ∃ x, compoundMass q c = .ok x := by
      unfold compoundMass
      split
      · rename_i hcm
        obtain ⟨i, hi, -⟩ := Chem.indexOf_mem hcm
        have hi2 := (List.getElem?_eq_some_iff.1 (Chem.indexOf_some hi)).1
        unfold Material.index
        rw [hi]
        dsimp only
        rw [List.getElem?_eq_getElem (by rw [q3, ← q1]; exact hi2)]
        exact ⟨_, rfl⟩
      · exact ⟨_, rfl⟩
    obtain ⟨i, hi, -⟩ := Chem.indexOf_mem hc
    have hi2 := (List.getElem?_eq_some_iff.1 (Chem.indexOf_some hi)).1
    obtain ⟨v, hv⟩ := (h1 c hc).1
    obtain ⟨r', hr', e1, e2, e3⟩ : ∃ r', addTuple rnd h r c x = .ok r' ∧ r'.mat = m ∧ r'.masses.length = m.compounds.length ∧ r'.T = 25 := by
      unfold addTuple Material.index thermoH
      rw [r1, hi, r3]
      dsimp only
      rw [hv]
      dsimp only
      rw [List.getElem?_eq_getElem (by rw [r2]; exact hi2)]
      exact ⟨_, rfl, rfl, by rw [List.length_set, r2], rfl⟩
    obtain ⟨y, q', hq', f1, f2, f3⟩ : ∃ y q', extractCompound rnd S h q c = (.ok y, q') ∧ q'.mat = p.mat ∧ q'.T = p.T ∧ q'.masses.length = p.mat.compounds.length := by
      unfold extractCompound
      rw [empty_eq R hS]
      dsimp only
      split
      · exact ⟨_, _, rfl, q1, q2, q3⟩
      · rename_i hcm
        obtain ⟨j, hj, -⟩ := Chem.indexOf_mem (not_not.1 hcm)
        have hj2 := (List.getElem?_eq_some_iff.1 (Chem.indexOf_some hj)).1
        unfold Material.index
        rw [hj]
        dsimp only
        rw [List.getElem?_eq_getElem (by rw [q3, ← q1]; exact hj2)]
        dsimp only
        have ok : ∀ a : List ℚ, a.length = p.mat.compounds.length → ∃ v, calcH rnd h q.mat a q.T = .ok v := fun a ha => by
          rw [q1, q2]; exact hLoop_ok ha h2 _ _ (fun c hc => hc)
        unfold settle setT
        dsimp only
        obtain ⟨v1, hv1⟩ := ok ((List.replicate q.mat.compounds.length 0).set j (q.masses[j]'(by rw [q3, ← q1]; exact hj2))) (by rw [List.length_set, List.length_replicate, q1])
        obtain ⟨v2, hv2⟩ := ok (q.masses.set j 0) (by rw [List.length_set, q3])
        rw [hv1]
        dsimp only
        rw [hv2]
        exact ⟨_, _, rfl, q1, q2, by rw [List.length_set, q3]⟩
    unfold materialLoop
    rw [hx]
    dsimp only
    rw [hr']
    dsimp only
    rw [hq']
    exact ih r' q' (fun d hd => hl d (List.mem_cons_of_mem _ hd)) e1 e2 e3 f1 f2 f3

/-- The hypotheses are met: taking the carbon out of a package of iron and carbon. -/
example : Sound rnd64 pkg2 ∧ mat1.compounds.Nodup ∧ (extractMaterial rnd64 (leftSum rnd64) h2 pkg2 mat1).1.toBool = true ∧
    held (extractMaterial rnd64 (leftSum rnd64) h2 pkg2 mat1).2 "C[Gr]".toList = 0 ∧ held (extractMaterial rnd64 (leftSum rnd64) h2 pkg2 mat1).2 "Fe[BCC]".toList = rnd64 (1/10) := by
  refine ⟨pkg2_sound, by decide +kernel, by decide +kernel, by decide +kernel, by decide +kernel⟩

end Auxi.ThermoFloat.Props
