import Verif.Proofs.Thermo

/-!
# Properties C60-C63: thermo packages
-/
namespace Auxi.Thermo.Props
open Auxi Auxi.Thermo Auxi.Thermo.Spec
open Auxi.Chem (indexOf indexOf_none)

/-! ## A concrete data base for the examples: two compounds of constant heat capacity, one whose heat capacity grows with temperature -/

/-- Heat capacity `a` J/mol/K throughout, enthalpy `dh` J/mol at 25 °C, molar mass 1 kg/mol. -/
noncomputable def flat (a dh : ℝ) : ThermoChem.Compound := ⟨1, [("S".toList, ⟨dh, 0, [(3000, ⟨298.15, 3000, [(a, 0)]⟩)], none⟩)]⟩
/-- Heat capacity equal to the absolute temperature. -/
noncomputable def steep : ThermoChem.Compound := ⟨1, [("S".toList, ⟨0, 0, [(3000, ⟨298.15, 3000, [(1, 1)]⟩)], none⟩)]⟩
/-- The data base. -/
noncomputable def db1 : Db := [("A".toList, flat 3600000 0), ("B".toList, flat 7200000 3600000), ("X".toList, steep)]
/-- A material of two compounds. -/
noncomputable def mAB : Material := ⟨1, ["A[S]".toList, "B[S]".toList], [], [], [], []⟩
/-- Another material with one of these. -/
noncomputable def mB : Material := ⟨2, ["B[S]".toList], [], [], [], []⟩
/-- A material of the third compound. -/
noncomputable def mX : Material := ⟨3, ["X[S]".toList], [], [], [], []⟩

theorem H_of_split {db : Db} {c f ph : Str} {cc : ThermoChem.Compound} {p : ThermoChem.Phase} (h1 : ThermoChem.splitCompound c = .ok (f, ph))
    (h2 : db.lookup f = some cc) (h3 : cc.phases.lookup ph = some p) (h4 : cc.molarMass = 1) {T v : ℝ} (h5 : p.H (T + 273.15) = .ok v) (m : ℝ) :
    ThermoChem.H db c T m = .ok (v / 3600000 * m) := by
  unfold ThermoChem.H ThermoChem.evaluate
  rw [h1]
  dsimp only
  rw [h2]
  dsimp only [ThermoChem.Compound.prop]
  rw [h3]
  dsimp only
  rw [h5]
  dsimp only [ThermoChem.finalise]
  rw [h4, if_neg one_ne_zero]
  simp

theorem flat_H (a dh : ℝ) (T : ℝ) : (⟨dh, 0, [(3000, ⟨298.15, 3000, [(a, 0)]⟩)], none⟩ : ThermoChem.Phase).H T = .ok (dh + a * (T - 298.15)) := by
  unfold ThermoChem.Phase.H
  simp only [ThermoChem.sortRecords, ThermoChem.insertRecord, ThermoChem.hLoop, ThermoChem.CpRecord.H, List.foldl_cons, List.foldl_nil,
    ThermoChem.CpRecord.limit, ThermoChem.Phase.HMag, List.getLast?_singleton, ThermoChem.Phase.Cp, ThermoChem.cpLoop, ThermoChem.Phase.CpMag, ThermoChem.CpRecord.Cp]
  by_cases h : T ≤ 3000
  · rw [if_pos h]
    by_cases h' : T < 3000
    · simp [h', show ¬ ((0:ℝ) = -1) by norm_num]
    · have : T = 3000 := by linarith
      subst this
      simp [show ¬ ((0:ℝ) = -1) by norm_num]
  · rw [if_neg h]
    have h' : ¬ T < 3000 := by linarith
    simp [h', show ¬ ((0:ℝ) = -1) by norm_num]
    ring

theorem steep_H (T : ℝ) (hT : T ≤ 3000) : (⟨0, 0, [(3000, ⟨298.15, 3000, [(1, 1)]⟩)], none⟩ : ThermoChem.Phase).H T = .ok ((T ^ 2 - 298.15 ^ 2) / 2) := by
  unfold ThermoChem.Phase.H
  have e : (1 : ℝ) + 1 = 2 := by norm_num
  have n : ¬ ((1:ℝ) = -1) := by norm_num
  simp only [ThermoChem.sortRecords, ThermoChem.insertRecord, ThermoChem.hLoop, ThermoChem.CpRecord.H, List.foldl_cons, List.foldl_nil,
    ThermoChem.CpRecord.limit, ThermoChem.Phase.HMag, if_pos hT, e, if_neg n, Real.rpow_two]
  by_cases h' : T < 3000
  · simp [h']
  · have : T = 3000 := by linarith
    subst this
    simp

theorem unit_A (T : ℝ) : unitH db1 "A[S]".toList T = T - 25 := by
  unfold unitH
  rw [H_of_split (f := "A".toList) (ph := "S".toList) (cc := flat 3600000 0) (by decide +kernel) (by unfold db1; rfl) (by unfold flat; rfl) rfl (flat_H _ _ _)]
  dsimp only; ring
theorem unit_B (T : ℝ) : unitH db1 "B[S]".toList T = 1 + 2 * (T - 25) := by
  unfold unitH
  rw [H_of_split (f := "B".toList) (ph := "S".toList) (cc := flat 7200000 3600000) (by decide +kernel) (by unfold db1; rfl) (by unfold flat; rfl) rfl (flat_H _ _ _)]
  dsimp only; ring
theorem unit_X (T : ℝ) (hT : T + 273.15 ≤ 3000) : unitH db1 "X[S]".toList T = ((T + 273.15) ^ 2 - 298.15 ^ 2) / 7200000 := by
  unfold unitH
  rw [H_of_split (f := "X".toList) (ph := "S".toList) (cc := steep) (by decide +kernel) (by unfold db1; rfl) (by unfold steep; rfl) rfl (steep_H _ hT)]
  dsimp only; ring

theorem known_A : ∃ h, ThermoChem.H db1 "A[S]".toList 25 1 = .ok h :=
  ⟨_, H_of_split (f := "A".toList) (ph := "S".toList) (cc := flat 3600000 0) (by decide +kernel) (by unfold db1; rfl) (by unfold flat; rfl) rfl (flat_H _ _ _) 1⟩
theorem known_B : ∃ h, ThermoChem.H db1 "B[S]".toList 25 1 = .ok h :=
  ⟨_, H_of_split (f := "B".toList) (ph := "S".toList) (cc := flat 7200000 3600000) (by decide +kernel) (by unfold db1; rfl) (by unfold flat; rfl) rfl (flat_H _ _ _) 1⟩
theorem known_X : ∃ h, ThermoChem.H db1 "X[S]".toList 25 1 = .ok h :=
  ⟨_, H_of_split (f := "X".toList) (ph := "S".toList) (cc := steep) (by decide +kernel) (by unfold db1; rfl) (by unfold steep; rfl) rfl (steep_H _ (by norm_num)) 1⟩

theorem known_mAB : Known db1 mAB := by
  intro c hc
  simp only [mAB, List.mem_cons, List.not_mem_nil, or_false] at hc
  rcases hc with rfl | rfl
  exacts [known_A, known_B]
theorem known_mB : Known db1 mB := by intro c hc; simp only [mB, List.mem_singleton] at hc; subst hc; exact known_B
theorem known_mX : Known db1 mX := by intro c hc; simp only [mX, List.mem_singleton] at hc; subst hc; exact known_X

/-- Two kilograms of A and three of B at a temperature, with the enthalpy that belongs to it. -/
noncomputable def pAB (t : ℝ) : Package := ⟨mAB, [some 2, some 3], some 1, some t, some (2 * (t - 25) + 3 * (1 + 2 * (t - 25))), false, none⟩
theorem pAB_sound (t : ℝ) : Sound (pAB t) :=
  ⟨by simp [pAB, mAB], by simp only [pAB, mAB]; decide +kernel, ⟨[2, 3], rfl, rfl⟩, ⟨t, rfl⟩, rfl⟩
/-- Five kilograms of B at a temperature. -/
noncomputable def pB (t : ℝ) : Package := ⟨mB, [some 5], some 1, some t, some (5 * (1 + 2 * (t - 25))), false, none⟩
theorem pB_sound (t : ℝ) : Sound (pB t) := ⟨by simp [pB, mB], by simp only [pB, mB]; decide +kernel, ⟨[5], rfl, rfl⟩, ⟨t, rfl⟩, rfl⟩
theorem pAB_content (t : ℝ) : content (pAB t) "A[S]".toList = 2 ∧ content (pAB t) "B[S]".toList = 3 := by
  unfold content Package.compoundMass
  rw [if_pos (by simp [pAB, mAB]), if_pos (by simp [pAB, mAB])]
  constructor <;> rfl

/-! ## C60: mixing -/

/-- **C60 (same material).** The sum exists, holds the sum of both masses of every compound and the sum of the enthalpies, and has the pressure
of the left operand. -/
theorem C60_same (db : Db) (p q : Package) (hp : Sound p) (hq : Sound q) (hm : q.mat = p.mat) (hk : Known db p.mat) :
    ∃ r, p.add db (.pkg q) = .ok r ∧ Mixed p q r := by
  have hq' : Rep p.mat q.masses (content q) := hm ▸ hq.rep
  obtain ⟨s, hs, hs'⟩ := hp.rep.add hq'
  obtain ⟨t, _, ht⟩ := setH_defined (p := ⟨p.mat, s, some 1, some 25, some (if 0 < (p.mat.compounds.map (fun c => content p c + content q c)).sum then hOf db p.mat (fun c => content p c + content q c) 25 else 0), false, none⟩) hk hp.some_compound rfl hs' (vadd p.H q.H)
  refine ⟨⟨p.mat, s, p.P, t, vadd p.H q.H, false, none⟩, ?_, rfl, ?_, ?_, rfl⟩
  · unfold Package.add
    dsimp only
    rw [if_pos (by rw [hm]), hs]
    dsimp only
    rw [newPackage_rep hk hs']
    dsimp only
    rw [ht]
    rfl
  · intro c
    by_cases hc : c ∈ p.mat.compounds
    · exact Rep.content (p := ⟨p.mat, s, p.P, t, vadd p.H q.H, false, none⟩) hs' hc
    · rw [content_absent hc, content_absent (p := q) (hm ▸ hc), content_absent (by exact hc), add_zero]
  · intro a b ha hb; dsimp only; rw [ha, hb]; rfl

theorem addLoop_rep {db : Db} {q : Package} (hq : Rep q.mat q.masses (content q)) (cs : List Str) (hcs : cs.Nodup) (hin : ∀ c ∈ cs, c ∈ q.mat.compounds) (p : Package) (hk : Known db p.mat)
    (hn : p.mat.compounds.Nodup) (hsub : ∀ c ∈ cs, c ∈ p.mat.compounds) {g : Str → ℝ} (h : Rep p.mat p.masses g) {t : ℝ} (ht : p.T = some t) :
    ∃ r, q.addLoop db cs p = .ok r ∧ r.mat = p.mat ∧ r.P = p.P ∧ r.T = p.T ∧ r.isCoal = p.isCoal ∧
      ∃ k, Rep p.mat r.masses k ∧ ∀ c, k c = g c + if c ∈ cs then content q c else 0 := by
  induction cs generalizing p g with
  | nil => exact ⟨p, rfl, rfl, rfl, rfl, rfl, g, h, by simp⟩
  | cons c cs ih =>
    have hc := hsub c (by simp)
    rw [List.nodup_cons] at hcs
    obtain ⟨ms, h1, h2⟩ := addTuple_rep hk hn h ht hc (content q c)
    obtain ⟨r, r1, r2, r3, r4, r5, k, r6, r7⟩ := ih hcs.2 (fun d hd => hin d (by simp [hd])) { p with masses := ms, H := vadd p.H (some (content q c * unitH db c t)) } hk hn
      (fun d hd => hsub d (by simp [hd])) h2 ht
    refine ⟨r, ?_, r2, r3, r4, r5, k, r6, fun d => ?_⟩
    · unfold Package.addLoop
      rw [if_neg (not_not.2 hc)]
      have : q.compoundMass c = .ok (some (content q c)) := by
        unfold Package.compoundMass
        rw [if_pos (hin c (by simp)), hq.entry (hin c (by simp))]
      rw [this]
      dsimp only
      rw [h1]
      exact r1
    · rw [r7 d]
      by_cases hd : d = c
      · subst hd
        rw [Function.update_self, if_neg hcs.1, if_pos (by simp)]; ring
      · rw [Function.update_of_ne hd]; simp [hd]

/-- **C60 (different materials).** The same when the left material has all compounds of the right one. -/
theorem C60_other (db : Db) (p q : Package) (hp : Sound p) (hq : Sound q) (hi : p.mat.ident ≠ q.mat.ident) (hk : Known db p.mat)
    (hsub : ∀ c ∈ q.mat.compounds, c ∈ p.mat.compounds) : ∃ r, p.add db (.pkg q) = .ok r ∧ Mixed p q r := by
  obtain ⟨t0, ht0⟩ := hp.temperature
  obtain ⟨r, r1, r2, r3, r4, r5, k, r6, r7⟩ := addLoop_rep (db := db) hq.rep q.mat.compounds hq.distinct (fun _ h => h) p hk hp.distinct hsub hp.rep ht0
  have r6' : Rep r.mat r.masses k := r2 ▸ r6
  obtain ⟨t, _, ht⟩ := setH_defined (p := r) (r2 ▸ hk) (r2 ▸ hp.some_compound) (r5.trans hp.not_coal) r6' (vadd p.H q.H)
  refine ⟨{ r with H := vadd p.H q.H, T := t }, ?_, r2, ?_, ?_, r3⟩
  · unfold Package.add
    dsimp only
    rw [if_neg hi, r1]
    dsimp only
    rw [ht]; rfl
  · intro c
    by_cases hc : c ∈ p.mat.compounds
    · rw [Rep.content (p := { r with H := vadd p.H q.H, T := t }) r6' (show c ∈ r.mat.compounds from r2 ▸ hc), r7 c]
      split
      · rfl
      · rename_i hq; rw [content_absent (p := q) hq]
    · rw [content_absent hc, content_absent (p := q) (fun h => hc (hsub c h)), content_absent (p := { r with H := vadd p.H q.H, T := t }) (show c ∉ r.mat.compounds from r2 ▸ hc), add_zero]
  · intro a b ha hb; dsimp only; rw [ha, hb]; rfl

/-- **C60 (foreign compounds).** If the right material has a compound that the left one lacks, the sum is refused, whatever its mass. -/
theorem C60_foreign (db : Db) (p q : Package) (hp : Sound p) (hq : Sound q) (hi : p.mat.ident ≠ q.mat.ident) (hk : Known db p.mat) (c : Str)
    (hc : c ∈ q.mat.compounds) (hc' : c ∉ p.mat.compounds) : p.add db (.pkg q) = .error .exception := by
  have key : ∀ cs, (∀ d ∈ cs, d ∈ q.mat.compounds) → c ∈ cs → ∀ (p' : Package) (g : Str → ℝ) (t : ℝ), p'.mat = p.mat → Rep p'.mat p'.masses g → p'.T = some t →
      q.addLoop db cs p' = .error .exception := by
    intro cs
    induction cs with
    | nil => intro _ h; cases h
    | cons d cs ih =>
      intro h1 h2 p' g t e1 e2 e3
      unfold Package.addLoop
      by_cases hd : d ∈ p'.mat.compounds
      · rw [if_neg (not_not.2 hd)]
        have : q.compoundMass d = .ok (some (content q d)) := by
          unfold Package.compoundMass
          rw [if_pos (h1 d (by simp)), hq.rep.entry (h1 d (by simp))]
        rw [this]
        dsimp only
        obtain ⟨ms, m1, m2⟩ := addTuple_rep (p := p') (e1 ▸ hk) (e1 ▸ hp.distinct) e2 e3 hd (content q d)
        rw [m1]
        refine ih (fun x hx => h1 x (by simp [hx])) ?_ _ _ t e1 m2 e3
        rcases List.mem_cons.1 h2 with rfl | h2
        · rw [e1] at hd; exact absurd hd hc'
        · exact h2
      · rw [if_pos hd]
  obtain ⟨t0, ht0⟩ := hp.temperature
  unfold Package.add
  dsimp only
  rw [if_neg hi, key q.mat.compounds (fun _ h => h) hc p _ t0 rfl hp.rep ht0]

/-- **C60 (compound and mass).** Adding `(compound, mass)` changes that compound's mass only, keeps temperature and pressure, and raises the
enthalpy by that of the added mass at the temperature of the package. -/
theorem C60_tuple (db : Db) (p : Package) (hp : Sound p) (hk : Known db p.mat) (c : Str) (x h t : ℝ) (hc : c ∈ p.mat.compounds) (ht : p.T = some t)
    (hh : p.H = some h) : ∃ r, p.add db (.tup c true (some x)) = .ok r ∧ r.mat = p.mat ∧
      (∀ d, content r d = content p d + if d = c then x else 0) ∧ r.T = p.T ∧ r.P = p.P ∧ ∃ e, ThermoChem.H db c t x = .ok e ∧ r.H = some (h + e) := by
  obtain ⟨ms, h1, h2⟩ := addTuple_rep hk hp.distinct hp.rep ht hc x
  refine ⟨{ p with masses := ms, H := vadd p.H (some (x * unitH db c t)) }, ?_, rfl, ?_, rfl, rfl, _, H_known hk hc t x, ?_⟩
  · unfold Package.add; dsimp only; rw [if_pos rfl]; exact h1
  · intro d
    by_cases hd : d ∈ p.mat.compounds
    · rw [Rep.content (p := { p with masses := ms, H := vadd p.H (some (x * unitH db c t)) }) h2 hd]
      by_cases hdc : d = c
      · subst hdc; simp
      · rw [Function.update_of_ne hdc, if_neg hdc, add_zero]
    · rw [content_absent hd, content_absent (by exact hd), if_neg (by rintro rfl; exact hd hc), add_zero]
  · dsimp only; rw [hh]; rfl

/-- **C60 (compound, mass and temperature).** Adding `(compound, mass, temperature)` changes that compound's mass only, keeps the pressure, and
raises the enthalpy by that of the added mass at the given temperature. -/
theorem C60_tuple3 (db : Db) (p : Package) (hp : Sound p) (hk : Known db p.mat) (c : Str) (x h t : ℝ) (hc : c ∈ p.mat.compounds)
    (hh : p.H = some h) : ∃ r, p.add db (.tup3 c true (some x) (some t)) = .ok r ∧ r.mat = p.mat ∧
      (∀ d, content r d = content p d + if d = c then x else 0) ∧ r.P = p.P ∧ ∃ e, ThermoChem.H db c t x = .ok e ∧ r.H = some (h + e) := by
  obtain ⟨t0, ht0⟩ := hp.temperature
  obtain ⟨i, i1, i2⟩ := index_mem hc
  have hsc := hp.rep.scale 1
  have hset := hsc.set hp.distinct i2 (content p c * 1 + x)
  have hmul : p.mul db true (some 1) = .ok ⟨p.mat, p.masses.map (fun y => vmul y (some 1)), p.P, some t0, some (if 0 < (p.mat.compounds.map (fun c => content p c * 1)).sum then hOf db p.mat (fun c => content p c * 1) t0 else 0), false, none⟩ := by
    unfold Package.mul
    rw [if_pos rfl, if_neg (show ¬ vgt (some 0) (some 1) from by simp [vgt]), ht0, newPackage_rep hk hsc]
  obtain ⟨t', _, ht'⟩ := setH_defined (p := ⟨p.mat, _, p.P, some t0, some (if 0 < (p.mat.compounds.map (fun c => content p c * 1)).sum then hOf db p.mat (fun c => content p c * 1) t0 else 0), false, none⟩)
    hk hp.some_compound rfl hset (some (h + x * unitH db c t))
  refine ⟨⟨p.mat, (p.masses.map (fun y => vmul y (some 1))).set i (some (content p c * 1 + x)), p.P, t', some (h + x * unitH db c t), false, none⟩, ?_, rfl, ?_, rfl, _, H_known hk hc t x, rfl⟩
  rotate_left
  · intro d
    by_cases hd : d ∈ p.mat.compounds
    · rw [Rep.content (p := ⟨p.mat, _, p.P, t', some (h + x * unitH db c t), false, none⟩) hset hd]
      by_cases hdc : d = c
      · subst hdc; simp
      · rw [Function.update_of_ne hdc, if_neg hdc, mul_one, add_zero]
    · rw [content_absent hd, content_absent (by exact hd), if_neg (by rintro rfl; exact hd hc), add_zero]
  · unfold Package.add
    dsimp only
    rw [if_pos rfl, i1]
    dsimp only
    rw [thermoH_known hk hc]
    dsimp only
    rw [hmul]
    dsimp only
    unfold bumpAt
    rw [hsc.at i2]
    dsimp only
    rw [hh]
    change (match finish (Package.setH db _ (some (h + x * unitH db c t))) with | .error e => _ | .ok r' => _) = _
    rw [show vadd (some (content p c * 1)) (some x) = some (content p c * 1 + x) from rfl, ht']
    rfl

/-- **C60 (scaling).** Multiplying by a non-negative float scales every mass and, for a package with consistent enthalpy and no negative masses,
the enthalpy; temperature and pressure stay.  Negative factors are refused. -/
theorem C60_scale (db : Db) (p : Package) (hp : Sound p) (hn : NonNeg p) (hc : Consistent db p) (hk : Known db p.mat) (k : ℝ) (hk0 : 0 ≤ k) :
    ∃ r, p.mul db true (some k) = .ok r ∧ r.mat = p.mat ∧ (∀ c, content r c = k * content p c) ∧ (∀ h, p.H = some h → r.H = some (k * h)) ∧ r.T = p.T ∧ r.P = p.P := by
  obtain ⟨t, ht, hH⟩ := hc
  have hsc := hp.rep.scale k
  refine ⟨⟨p.mat, p.masses.map (fun y => vmul y (some k)), p.P, some t, some (hOf db p.mat (fun c => content p c * k) t), false, none⟩, ?_, rfl, ?_, ?_, ht.symm, rfl⟩
  rotate_left
  · intro c
    by_cases hc : c ∈ p.mat.compounds
    · rw [Rep.content (p := ⟨p.mat, _, p.P, some t, _, false, none⟩) hsc hc, mul_comm]
    · rw [content_absent hc, content_absent (by exact hc), mul_zero]
  · intro h hh
    rw [hH] at hh
    cases hh
    rw [enthalpyAt_hOf hp.rep, hOf_scale, mul_comm]
  · unfold Package.mul
    rw [if_pos rfl, if_neg (show ¬ vgt (some 0) (some k) from not_lt.2 hk0), ht]
    exact newPackage_nonneg hk hsc (fun c _ => mul_nonneg (hn c) hk0) p.P t none

theorem C60_scale_refused (db : Db) (p : Package) (k : ℝ) (hk0 : k < 0) : p.mul db true (some k) = .error .exception := by
  unfold Package.mul
  rw [if_pos rfl, if_pos (show vgt (some 0) (some k) from hk0)]

/-- A hot and a cold package of the same material. -/
example : ∃ r, (pAB 100).add db1 (.pkg (pAB 20)) = .ok r ∧ Mixed (pAB 100) (pAB 20) r := C60_same db1 _ _ (pAB_sound _) (pAB_sound _) rfl known_mAB
example : ∃ r, (pAB 100).add db1 (.pkg (pB 20)) = .ok r ∧ Mixed (pAB 100) (pB 20) r :=
  C60_other db1 _ _ (pAB_sound _) (pB_sound _) (by simp [pAB, pB, mAB, mB]) known_mAB (by simp [pAB, pB, mAB, mB])
example : (pB 20).add db1 (.pkg (pAB 100)) = .error .exception :=
  C60_foreign db1 _ _ (pB_sound _) (pAB_sound _) (by simp [pAB, pB, mAB, mB]) known_mB "A[S]".toList (by simp [pAB, mAB]) (by simp [pB, mB])

end Auxi.Thermo.Props
