import Verif.Props.ThermoSplit

/-!
# Properties C62, C63 and C65-C69: enthalpy and temperature of thermo packages
-/
namespace Auxi.Thermo.Props
open Auxi Auxi.Thermo Auxi.Thermo.Spec
open Auxi.Chem (indexOf indexOf_none)

/-! ## C63: the temperature solver, for any enthalpy function -/

/-- The sequence of the secant method. -/
noncomputable def secSeq (F : ℝ → ℝ) (H T : ℝ) : ℕ → ℝ × ℝ
  | 0 => (T, T + 10)
  | n + 1 =>
    let (a, b) := secSeq F H T n
    (b, b - (F b - H) * ((b - a) / (F b - F a)))

theorem secSeq_snd (F : ℝ → ℝ) (H T : ℝ) (n : ℕ) : (secSeq F H T n).2 = (secSeq F H T (n + 1)).1 := rfl

theorem secantStep_some {a ya b yb : ℝ} (h : yb - ya ≠ 0) :
    secantStep (some a) (some ya) (some b) (some yb) = some (b - yb * ((b - a) / (yb - ya))) := by
  change vsub (some b) (vmul (some yb) (if yb - ya = 0 then none else some ((b - a) / (yb - ya)))) = _
  rw [if_neg h]; rfl

theorem secantStep_flat {a ya b yb : ℝ} (h : yb - ya = 0) : secantStep (some a) (some ya) (some b) (some yb) = none := by
  change vsub (some b) (vmul (some yb) (if yb - ya = 0 then none else some ((b - a) / (yb - ya)))) = _
  rw [if_pos h]; rfl

theorem secantLoop_none {py : Bool} {f : V → Res V} {H : V} {n : ℕ} {x0 y0 y1 t : V} (h : secantLoop py f H n x0 y0 none y1 = .ok t) : t = none := by
  induction n generalizing x0 y0 y1 with
  | zero => cases h; rfl
  | succ n ih =>
    unfold secantLoop at h
    split at h
    · cases h
    · dsimp only at h
      have : secantStep x0 y0 none y1 = none := by unfold secantStep vsub; cases vmul y1 (vdiv (vsub none x0) (vsub y1 y0)) <;> rfl
      rw [this] at h
      cases hf : f none with
      | error e => rw [hf] at h; cases h
      | ok v =>
        rw [hf] at h
        dsimp only at h
        split at h
        · cases h; rfl
        · exact ih h

theorem secantLoop_trace {py : Bool} {f : V → Res V} {F : ℝ → ℝ} (hf : ∀ x : ℝ, f (some x) = .ok (some (F x))) (H T : ℝ) (k i : ℕ) (t : ℝ)
    (h : secantLoop py f (some H) k (some (secSeq F H T i).1) (some (F (secSeq F H T i).1 - H)) (some (secSeq F H T i).2) (some (F (secSeq F H T i).2 - H)) = .ok (some t)) :
    ∃ n, i + 1 ≤ n ∧ n ≤ i + 1 + k ∧ t = (secSeq F H T n).1 ∧ (∀ j, i ≤ j → j + 2 ≤ n → F (secSeq F H T (j + 1)).1 ≠ F (secSeq F H T j).1) ∧
      (∀ j, i + 1 ≤ j → j + 1 < n → 1 / 100000 ≤ |F (secSeq F H T j).1 - H|) ∧
      (n = i + 1 + k ∨ (i + 2 ≤ n ∧ |F (secSeq F H T (n - 1)).1 - H| < 1 / 100000)) := by
  induction k generalizing i with
  | zero =>
    cases h
    exact ⟨i + 1, le_rfl, le_rfl, rfl, fun j h1 h2 => by omega, fun j h1 h2 => by omega, Or.inl rfl⟩
  | succ k ih =>
    unfold secantLoop at h
    split at h
    · cases h
    dsimp only at h
    set a := (secSeq F H T i).1 with ha
    set b := (secSeq F H T i).2 with hb
    by_cases hflat : (F b - H) - (F a - H) = 0
    · rw [secantStep_flat hflat] at h
      exfalso
      cases hfn : f none with
      | error e => rw [hfn] at h; cases h
      | ok v =>
        rw [hfn] at h
        dsimp only at h
        split at h
        · cases h
        · exact absurd (secantLoop_none h) (by simp)
    · rw [secantStep_some hflat] at h
      have hstep : b - (F b - H) * ((b - a) / ((F b - H) - (F a - H))) = (secSeq F H T (i + 1)).2 := by
        change _ = b - (F b - H) * ((b - a) / (F b - F a))
        rw [show (F b - H) - (F a - H) = F b - F a by ring]
      rw [hstep, hf] at h
      dsimp only at h
      have hne : F b ≠ F a := fun e => hflat (by rw [e]; ring)
      split at h
      · rename_i hs
        cases h
        refine ⟨i + 2, by omega, by omega, rfl, ?_, ?_, Or.inr ⟨le_rfl, ?_⟩⟩
        · intro j h1 h2
          have : j = i := by omega
          subst this; exact hne
        · intro j h1 h2; omega
        · exact hs
      · rename_i hs
        have hs' : 1 / 100000 ≤ |F b - H| := not_lt.1 hs
        obtain ⟨n, n1, n2, n3, n4, n5, n6⟩ := ih (i + 1) h
        refine ⟨n, by omega, by omega, n3, ?_, ?_, ?_⟩
        · intro j h1 h2
          rcases Nat.eq_or_lt_of_le h1 with rfl | h1
          · exact hne
          · exact n4 j h1 h2
        · intro j h1 h2
          rcases Nat.eq_or_lt_of_le h1 with rfl | h1
          · exact hs'
          · exact n5 j h1 h2
        · rcases n6 with n6 | ⟨n6, n7⟩
          · exact Or.inl (by omega)
          · exact Or.inr ⟨by omega, n7⟩

/-- **C63 (what the solver returns).** A finite temperature is the last element of a secant sequence from `T` and `T + 10`, with at most 48 steps;
it stops before the 48th step only if the enthalpy at the *previous* element was within 1e-5 of the target, and at the first such. -/
theorem C63_stops (py : Bool) (f : V → Res V) (F : ℝ → ℝ) (hf : ∀ x : ℝ, f (some x) = .ok (some (F x))) (H T t : ℝ) (h : calcT py f (some T) (some H) = .ok (some t)) :
    ∃ (x : ℕ → ℝ) (n : ℕ), x 0 = T ∧ x 1 = T + 10 ∧ n ≤ 49 ∧ t = x n ∧
      (∀ i, i + 2 ≤ n → F (x (i + 1)) ≠ F (x i) ∧ x (i + 2) = x (i + 1) - (F (x (i + 1)) - H) * ((x (i + 1) - x i) / (F (x (i + 1)) - F (x i)))) ∧
      (∀ i, 1 ≤ i → i + 1 < n → 1 / 100000 ≤ |F (x i) - H|) ∧ (n = 49 ∨ (2 ≤ n ∧ |F (x (n - 1)) - H| < 1 / 100000)) := by
  unfold calcT at h
  rw [hf] at h
  dsimp only at h
  rw [show vadd (some T) (some 10) = some (T + 10) from rfl, hf] at h
  dsimp only at h
  obtain ⟨n, n1, n2, n3, n4, n5, n6⟩ := secantLoop_trace hf H T 48 0 t h
  refine ⟨fun i => (secSeq F H T i).1, n, rfl, rfl, by omega, n3, ?_, ?_, ?_⟩
  · intro i hi
    exact ⟨n4 i (by omega) hi, rfl⟩
  · intro i h1 h2; exact n5 i (by omega) h2
  · rcases n6 with n6 | n6
    · exact Or.inl (by omega)
    · exact Or.inr ⟨by omega, n6.2⟩

/-- **C63 (constant heat capacity).** If the enthalpy is an affine function of temperature that is not constant, the solver finds the temperature
of the given enthalpy exactly. -/
theorem C63_affine (f : V → Res V) (a b : ℝ) (ha : a ≠ 0) (hf : ∀ x : ℝ, f (some x) = .ok (some (a * x + b))) (H T : ℝ) :
    calcT false f (some T) (some H) = .ok (some ((H - b) / a)) := by
  unfold calcT
  rw [hf]
  dsimp only
  rw [show vadd (some T) (some 10) = some (T + 10) from rfl, hf]
  dsimp only
  have e1 : (a * (T + 10) + b - H) - (a * T + b - H) ≠ 0 := by
    rw [show (a * (T + 10) + b - H) - (a * T + b - H) = 10 * a by ring]; positivity
  have e2 : T + 10 - (a * (T + 10) + b - H) * ((T + 10 - T) / ((a * (T + 10) + b - H) - (a * T + b - H))) = (H - b) / a := by
    rw [show (a * (T + 10) + b - H) - (a * T + b - H) = 10 * a by ring]; field_simp; ring
  change secantLoop false f (some H) (46 + 1 + 1) (some T) (some (a * T + b - H)) (some (T + 10)) (some (a * (T + 10) + b - H)) = _
  unfold secantLoop
  rw [if_neg (by simp)]
  dsimp only
  rw [secantStep_some e1, e2, hf]
  dsimp only
  by_cases hs : small (some (a * (T + 10) + b - H))
  · rw [if_pos hs]
  · rw [if_neg hs]
    have e3 : a * ((H - b) / a) + b - H = 0 := by field_simp; ring
    rw [show vsub (some (a * ((H - b) / a) + b)) (some H) = some 0 from congrArg some e3]
    have e4 : (0 : ℝ) - (a * (T + 10) + b - H) ≠ 0 := by
      intro h0
      apply hs
      unfold small
      rw [show a * (T + 10) + b - H = 0 by linarith]
      norm_num
    unfold secantLoop
    rw [if_neg (by simp)]
    dsimp only
    rw [secantStep_some e4, zero_mul, sub_zero, hf]
    dsimp only
    rw [if_pos (by unfold small; norm_num)]

/-- **C63 (nothing to do).** If the target is the enthalpy at the starting temperature, and the enthalpy 10 degrees above differs, the solver
returns the starting temperature exactly. -/
theorem C63_keeps (f : V → Res V) (h0 h1 T : ℝ) (e0 : f (some T) = .ok (some h0)) (e1 : f (some (T + 10)) = .ok (some h1)) (hne : h1 ≠ h0) :
    calcT false f (some T) (some h0) = .ok (some T) := by
  unfold calcT
  rw [e0]
  dsimp only
  rw [show vadd (some T) (some 10) = some (T + 10) from rfl, e1]
  dsimp only
  have d1 : (h1 - h0) - (h0 - h0) ≠ 0 := by rw [sub_self, sub_zero]; exact sub_ne_zero.2 hne
  have d0 : h1 - h0 ≠ 0 := sub_ne_zero.2 hne
  have d2 : T + 10 - (h1 - h0) * ((T + 10 - T) / ((h1 - h0) - (h0 - h0))) = T := by rw [sub_self, sub_zero]; field_simp; ring
  change secantLoop false f (some h0) (46 + 1 + 1) (some T) (some (h0 - h0)) (some (T + 10)) (some (h1 - h0)) = _
  unfold secantLoop
  rw [if_neg (by simp)]
  dsimp only
  rw [secantStep_some d1, d2, e0]
  dsimp only
  by_cases hs : small (some (h1 - h0))
  · rw [if_pos hs]
  · rw [if_neg hs]
    rw [show vsub (some h0) (some h0) = some 0 from congrArg some (sub_self h0)]
    unfold secantLoop
    rw [if_neg (by simp)]
    dsimp only
    rw [secantStep_some (by rw [zero_sub]; exact neg_ne_zero.2 d0), zero_mul, sub_zero, e0]
    dsimp only
    rw [if_pos (by unfold small; norm_num)]

/-- **C63 (packages).** Setting the enthalpy that a package already has keeps its temperature, provided its enthalpy 10 degrees above differs. -/
theorem C63_package_keeps (db : Db) (p : Package) (hp : Sound p) (hk : Known db p.mat) (t : ℝ) (ht : p.T = some t) (hne : enthalpyAt db p (t + 10) ≠ enthalpyAt db p t) :
    p.setH db (some (enthalpyAt db p t)) = (.ok (), { p with H := some (enthalpyAt db p t) }) := by
  obtain ⟨t', h1, h2⟩ := setH_defined hk hp.some_compound hp.not_coal hp.rep (some (enthalpyAt db p t))
  have r := enthalpyAt_hOf (db := db) hp.rep
  rw [h2]
  have c0 : calcH db { p with H := some (enthalpyAt db p t) } (some t) = .ok (some (enthalpyAt db p t)) := by
    rw [calcH_rep (p := { p with H := some (enthalpyAt db p t) }) hk hp.not_coal hp.rep t, ← r]
  have c1 : calcH db { p with H := some (enthalpyAt db p t) } (some (t + 10)) = .ok (some (enthalpyAt db p (t + 10))) := by
    rw [calcH_rep (p := { p with H := some (enthalpyAt db p t) }) hk hp.not_coal hp.rep (t + 10), ← r]
  have k := C63_keeps _ _ _ t c0 c1 hne
  rw [← ht] at k
  rw [k] at h1
  cases h1; rfl

/-- Setting `H`, then reading it and the temperature, for a package of constant heat capacity `a`: everything is as asked for, and consistent. -/
theorem C63_package_affine (db : Db) (p : Package) (hp : Sound p) (hk : Known db p.mat) (a b : ℝ) (ha : a ≠ 0) (haff : ∀ x, enthalpyAt db p x = a * x + b) (H : ℝ) :
    ∃ r, p.setH db (some H) = (.ok (), r) ∧ r.H = some H ∧ r.T = some ((H - b) / a) ∧ (∀ c, content r c = content p c) ∧ r.P = p.P ∧ Consistent db r := by
  obtain ⟨t, ht⟩ := hp.temperature
  obtain ⟨t', h1, h2⟩ := setH_defined hk hp.some_compound hp.not_coal hp.rep (some H)
  have r := enthalpyAt_hOf (db := db) hp.rep
  have k := C63_affine (calcH db { p with H := some H }) a b ha (fun x => by rw [calcH_rep (p := { p with H := some H }) hk hp.not_coal hp.rep x, ← haff x, r]) H t
  rw [← ht] at k
  rw [k] at h1
  cases h1
  refine ⟨_, h2, rfl, rfl, fun c => rfl, rfl, _, rfl, ?_⟩
  change some H = some (enthalpyAt db p ((H - b) / a))
  rw [haff]
  congr 1
  field_simp
  ring

theorem pAB_affine (t x : ℝ) : enthalpyAt db1 (pAB t) x = 8 * x + (-197) := by
  change ([content (pAB t) "A[S]".toList * unitH db1 "A[S]".toList x, content (pAB t) "B[S]".toList * unitH db1 "B[S]".toList x].sum) = _
  rw [(pAB_content t).1, (pAB_content t).2, unit_A, unit_B]
  simp; ring

example : ∃ r, (pAB 100).setH db1 (some 203) = (.ok (), r) ∧ r.T = some 50 := by
  obtain ⟨r, h1, _, h2, _⟩ := C63_package_affine db1 (pAB 100) (pAB_sound _) known_mAB 8 (-197) (by norm_num) (pAB_affine 100) 203
  exact ⟨r, h1, by rw [h2]; norm_num⟩
example : (pAB 100).setH db1 (some (enthalpyAt db1 (pAB 100) 100)) = (.ok (), { pAB 100 with H := some (enthalpyAt db1 (pAB 100) 100) }) :=
  C63_package_keeps db1 (pAB 100) (pAB_sound _) known_mAB 100 rfl (by rw [pAB_affine, pAB_affine]; norm_num)

/-! ## C68: small packages -/

/-- **C68 (general).** If the enthalpy 10 degrees above the current temperature lies within 1e-5 kWh of the target, the solver makes exactly one
step of linear extrapolation, however far that goes. -/
theorem C68_one_step (f : V → Res V) (h0 h1 T H : ℝ) (hd : ∀ x, ∃ v, f x = .ok v) (e0 : f (some T) = .ok (some h0)) (e1 : f (some (T + 10)) = .ok (some h1)) (hne : h1 ≠ h0)
    (hs : |h1 - H| < 1 / 100000) : calcT false f (some T) (some H) = .ok (some (T + 10 * (H - h0) / (h1 - h0))) := by
  unfold calcT
  rw [e0]
  dsimp only
  rw [show vadd (some T) (some 10) = some (T + 10) from rfl, e1]
  dsimp only
  have d0 : h1 - h0 ≠ 0 := sub_ne_zero.2 hne
  have d1 : (h1 - H) - (h0 - H) ≠ 0 := by rw [sub_sub_sub_cancel_right]; exact d0
  have d2 : T + 10 - (h1 - H) * ((T + 10 - T) / ((h1 - H) - (h0 - H))) = T + 10 * (H - h0) / (h1 - h0) := by rw [sub_sub_sub_cancel_right]; field_simp; ring
  change secantLoop false f (some H) (47 + 1) (some T) (some (h0 - H)) (some (T + 10)) (some (h1 - H)) = _
  unfold secantLoop
  rw [if_neg (by simp)]
  dsimp only
  rw [secantStep_some d1, d2]
  obtain ⟨v, hv⟩ := hd (some (T + 10 * (H - h0) / (h1 - h0)))
  rw [hv]
  dsimp only
  rw [if_pos (show small (some (h1 - H)) from hs)]

/-- Ten milligrams of a compound whose heat capacity grows with temperature, at 25 °C. -/
noncomputable def pSmall : Package := ⟨mX, [some (1 / 100000)], some 1, some 25, some 0, false, none⟩
theorem pSmall_sound : Sound pSmall := ⟨by simp [pSmall, mX], by simp [pSmall, mX], ⟨[1 / 100000], rfl, rfl⟩, ⟨25, rfl⟩, rfl⟩
theorem pSmall_enthalpy (t : ℝ) (ht : t + 273.15 ≤ 3000) : enthalpyAt db1 pSmall t = ((t + 273.15) ^ 2 - 298.15 ^ 2) / 7200000 / 100000 := by
  change ([content pSmall "X[S]".toList * unitH db1 "X[S]".toList t].sum) = _
  have : content pSmall "X[S]".toList = 1 / 100000 := by
    unfold content Package.compoundMass
    rw [if_pos (by simp [pSmall, mX])]; rfl
  rw [this, unit_X t ht]
  simp; ring

/-- **C68 is false of the code.** Given the enthalpy it has at 1000 °C, a package of ten milligrams gets a temperature above 2500 °C; its enthalpy
there is more than four times the one stored. -/
theorem C68_counterexample : ∃ r t, pSmall.setH db1 (some (enthalpyAt db1 pSmall 1000)) = (.ok (), r) ∧ r.T = some t ∧ 2500 < t ∧
    ∃ h, r.H = some h ∧ 4 * h < enthalpyAt db1 r t := by
  obtain ⟨t', h1, h2⟩ := setH_defined (p := pSmall) known_mX pSmall_sound.some_compound rfl pSmall_sound.rep (some (enthalpyAt db1 pSmall 1000))
  have r := enthalpyAt_hOf (db := db1) pSmall_sound.rep
  have c := calcH_rep (p := { pSmall with H := some (enthalpyAt db1 pSmall 1000) }) known_mX rfl pSmall_sound.rep
  have e0 : enthalpyAt db1 pSmall 25 = 0 := by rw [pSmall_enthalpy _ (by norm_num)]; norm_num
  have e1 : enthalpyAt db1 pSmall 35 = ((35 + 273.15) ^ 2 - 298.15 ^ 2) / 7200000 / 100000 := pSmall_enthalpy _ (by norm_num)
  have e2 : enthalpyAt db1 pSmall 1000 = ((1000 + 273.15) ^ 2 - 298.15 ^ 2) / 7200000 / 100000 := pSmall_enthalpy _ (by norm_num)
  have k := C68_one_step (calcH db1 { pSmall with H := some (enthalpyAt db1 pSmall 1000) }) (enthalpyAt db1 pSmall 25) (enthalpyAt db1 pSmall 35) 25 (enthalpyAt db1 pSmall 1000)
    (fun x => calcH_defined (p := { pSmall with H := some (enthalpyAt db1 pSmall 1000) }) known_mX rfl pSmall_sound.rep x)
    (by rw [c, r]; rfl) (by rw [show (25 : ℝ) + 10 = 35 by norm_num, c, r]; rfl) (by rw [e0, e1]; norm_num) (by rw [e1, e2, abs_lt]; norm_num)
  change calcT false _ (some 25) _ = _ at h1
  rw [k] at h1
  cases h1
  refine ⟨_, _, h2, rfl, by rw [e0, e1, e2]; norm_num, _, rfl, ?_⟩
  change 4 * enthalpyAt db1 pSmall 1000 <
    enthalpyAt db1 pSmall (25 + 10 * (enthalpyAt db1 pSmall 1000 - enthalpyAt db1 pSmall 25) / (enthalpyAt db1 pSmall 35 - enthalpyAt db1 pSmall 25))
  rw [pSmall_enthalpy (25 + 10 * (enthalpyAt db1 pSmall 1000 - enthalpyAt db1 pSmall 25) / (enthalpyAt db1 pSmall 35 - enthalpyAt db1 pSmall 25))
    (by rw [e0, e1, e2]; norm_num), e0, e1, e2]
  norm_num

/-! ## C62: histories -/

/-- Packages obtained from consistent ones by the operations that fix the temperature: scaling, adding a compound at the temperature of the
package, extracting, and setting the temperature. -/
inductive Made (db : Db) : Package → Prop
  /-- from an assay (or empty), the mass not negative and the resulting numbers finite -/
  | created {m : Material} {a : Option Str} {x P T : V} {b : Bool} {p : Package} : Known db m → m.createPackage db a x P T b = .ok p → Sound p → NonNeg p → Made db p
  /-- `p * k` -/
  | scaled {p r : Package} {k : ℝ} : Made db p → p.mul db true (some k) = .ok r → Made db r
  /-- `p + (c, x)` -/
  | compound {p r : Package} {c : Str} {x : ℝ} : Made db p → 0 ≤ x → p.add db (.tup c true (some x)) = .ok r → Made db r
  /-- `p.T = t` -/
  | heated {p r : Package} {t : ℝ} : Made db p → p.setT db (some t) = (.ok (), r) → Made db r
  /-- the extracted part of a mass -/
  | part {p part rest : Package} {x : ℝ} : Made db p → 0 < totalMass p → 0 ≤ x → p.extract db (.num true (some x)) = (.ok part, rest) → Made db part
  /-- the remainder after extracting a mass -/
  | rest {p part rest : Package} {x : ℝ} : Made db p → 0 < totalMass p → 0 ≤ x → p.extract db (.num true (some x)) = (.ok part, rest) → Made db rest
  /-- the extracted compound -/
  | compoundPart {p part rest : Package} {c : Str} : Made db p → p.extract db (.str c) = (.ok part, rest) → Made db part
  /-- the remainder after extracting a compound -/
  | compoundRest {p part rest : Package} {c : Str} : Made db p → p.extract db (.str c) = (.ok part, rest) → Made db rest
  /-- the extracted mass of a compound -/
  | massPart {p part rest : Package} {c : Str} {x : ℝ} : Made db p → 0 ≤ x → p.extract db (.tup c true (some x)) = (.ok part, rest) → Made db part
  /-- the remainder after extracting a mass of a compound -/
  | massRest {p part rest : Package} {c : Str} {x : ℝ} : Made db p → 0 ≤ x → p.extract db (.tup c true (some x)) = (.ok part, rest) → Made db rest

/-- What the history theorem maintains. -/
structure Good (db : Db) (p : Package) : Prop where
  sound : Sound p
  nonneg : NonNeg p
  consistent : Consistent db p
  known : Known db p.mat

theorem good_of {db : Db} {p : Package} {g : Str → ℝ} {t : ℝ} (hr : Rep p.mat p.masses g) (h0 : p.mat.compounds ≠ []) (hn : p.mat.compounds.Nodup) (ht : p.T = some t)
    (hc : p.isCoal = false) (hg : ∀ c ∈ p.mat.compounds, 0 ≤ g c) (hH : p.H = some (hOf db p.mat g t)) (hk : Known db p.mat) : Good db p :=
  ⟨hr.sound h0 hn ⟨t, ht⟩ hc, fun c => by
    by_cases h : c ∈ p.mat.compounds
    · rw [hr.content h]; exact hg c h
    · rw [content_absent h], ⟨t, ht, by rw [hH, enthalpyAt_hOf hr]⟩, hk⟩

theorem good_split {db : Db} {p part rest : Package} (h : Good db p) (hs : Split p rest part) (h1 : Sound part) (h2 : Sound rest) (hm : part.mat = p.mat)
    (n1 : ∀ c, 0 ≤ content part c) (n2 : ∀ c, 0 ≤ content rest c) (c1 : Consistent db part) (c2 : Consistent db rest) : Good db part ∧ Good db rest :=
  ⟨⟨h1, n1, c1, hm ▸ h.known⟩, ⟨h2, n2, c2, hs.1 ▸ h.known⟩⟩

theorem extractMass_good {db : Db} {p part rest : Package} (h : Good db p) (hpos : 0 < totalMass p) {x : ℝ} (hx : 0 ≤ x) (he : p.extract db (.num true (some x)) = (.ok part, rest)) :
    Good db part ∧ Good db rest := by
  by_cases hle : x ≤ totalMass p
  · obtain ⟨t, ht, hH⟩ := h.consistent
    have hf : 0 ≤ x / totalMass p := div_nonneg hx hpos.le
    have hf1 : x / totalMass p ≤ 1 := (div_le_one hpos).2 hle
    have h1 := h.sound.rep.scale (x / totalMass p)
    have h2 := h.sound.rep.scale (1 - x / totalMass p)
    have hdiv : vdiv (some x) p.mass = some (x / totalMass p) := by rw [totalMass_rep h.sound]; exact if_neg hpos.ne'
    unfold Package.extract Package.extractMass at he
    dsimp only at he
    rw [if_pos rfl, if_neg (by rw [totalMass_rep h.sound]; exact not_lt.2 hle), hdiv, ht,
      newPackage_nonneg h.known h1 (fun c _ => mul_nonneg (h.nonneg c) hf)] at he
    dsimp only at he
    rw [show vsub (some 1) (some (x / totalMass p)) = some (1 - x / totalMass p) from rfl,
      settle_rep (p := { p with masses := p.masses.map (fun y => vmul y (some (1 - x / totalMass p))), T := some t }) h.known h.sound.not_coal h2 rfl] at he
    cases he
    exact ⟨good_of h1 h.sound.some_compound h.sound.distinct rfl rfl (fun c _ => mul_nonneg (h.nonneg c) hf) rfl h.known,
      good_of (p := { p with masses := p.masses.map (fun y => vmul y (some (1 - x / totalMass p))), T := some t, H := _ }) h2 h.sound.some_compound h.sound.distinct rfl
        h.sound.not_coal (fun c _ => mul_nonneg (h.nonneg c) (by linarith)) rfl h.known⟩
  · rw [C61_too_much db p h.sound x (not_le.1 hle)] at he
    cases he

theorem update_nonneg {g : Str → ℝ} {c : Str} {v : ℝ} (hv : 0 ≤ v) (hg : ∀ d, 0 ≤ g d) (d : Str) : 0 ≤ Function.update g c v d := by
  by_cases h : d = c
  · subst h; simpa using hv
  · rw [Function.update_of_ne h]; exact hg d

theorem empty_good {db : Db} {m : Material} (hk : Known db m) (h0 : m.compounds ≠ []) (hn : m.compounds.Nodup) (P : V) (t : ℝ) :
    Good db ⟨m, m.emptyAssay, P, some t, some 0, false, none⟩ :=
  good_of (Rep.empty m) h0 hn rfl rfl (fun _ _ => le_rfl) (by rw [hOf_zero]) hk

theorem extractCompound_good {db : Db} {p part rest : Package} (h : Good db p) {c : Str} (he : p.extract db (.str c) = (.ok part, rest)) : Good db part ∧ Good db rest := by
  by_cases hin : c ∈ p.mat.compounds
  · obtain ⟨t, ht, hH⟩ := h.consistent
    obtain ⟨i, i1, i2⟩ := index_mem hin
    have h1 := (Rep.empty p.mat).set h.sound.distinct i2 (content p c)
    have h2 := h.sound.rep.set h.sound.distinct i2 0
    unfold Package.extract Package.extractCompound at he
    dsimp only at he
    rw [createEmpty h.known] at he
    dsimp only at he
    rw [if_neg (not_not.2 hin), i1] at he
    dsimp only at he
    rw [h.sound.rep.at i2] at he
    dsimp only at he
    rw [ht, setT_rep (p := ⟨p.mat, p.mat.emptyAssay.set i (some (content p c)), some 1, some 25, some 0, false, none⟩) h.known rfl h1 t] at he
    dsimp only at he
    rw [settle_rep (p := { p with masses := p.masses.set i (some 0), T := some t }) h.known h.sound.not_coal h2 rfl] at he
    cases he
    exact ⟨good_of (p := Package.setP ⟨p.mat, p.mat.emptyAssay.set i (some (content p c)), some 1, some t, _, false, none⟩ p.P) h1 h.sound.some_compound h.sound.distinct rfl rfl
        (fun d _ => update_nonneg (h.nonneg c) (fun _ => le_rfl) d) rfl h.known,
      good_of (p := { p with masses := p.masses.set i (some 0), T := some t, H := _ }) h2 h.sound.some_compound h.sound.distinct rfl h.sound.not_coal
        (fun d _ => update_nonneg le_rfl h.nonneg d) rfl h.known⟩
  · unfold Package.extract Package.extractCompound at he
    dsimp only at he
    rw [createEmpty h.known] at he
    dsimp only at he
    rw [if_pos hin] at he
    cases he
    exact ⟨empty_good h.known h.sound.some_compound h.sound.distinct _ _, h⟩

theorem extractCompoundMass_good {db : Db} {p part rest : Package} (h : Good db p) {c : Str} {x : ℝ} (hx : 0 ≤ x) (he : p.extract db (.tup c true (some x)) = (.ok part, rest)) :
    Good db part ∧ Good db rest := by
  by_cases hin : c ∈ p.mat.compounds
  · by_cases hle : x ≤ content p c
    · obtain ⟨t, ht, hH⟩ := h.consistent
      obtain ⟨i, i1, i2⟩ := index_mem hin
      have h2 := h.sound.rep.set h.sound.distinct i2 (content p c - x)
      obtain ⟨ms, m1, m2⟩ := addTuple_rep (p := ⟨p.mat, p.mat.emptyAssay, p.P, some t, some 0, false, none⟩) h.known h.sound.distinct (Rep.empty p.mat) rfl hin x
      unfold Package.extract Package.extractCompoundMass at he
      dsimp only at he
      rw [if_pos rfl, if_neg (not_not.2 hin), i1] at he
      dsimp only at he
      rw [h.sound.rep.at i2] at he
      dsimp only at he
      rw [if_neg (show ¬ vgt (some x) (some (content p c)) from not_lt.2 hle)] at he
      rw [show vsub (some (content p c)) (some x) = some (content p c - x) from rfl, ht,
        setT_rep (p := { p with masses := p.masses.set i (some (content p c - x)), T := some t }) h.known h.sound.not_coal h2 t] at he
      dsimp only at he
      rw [createEmpty h.known] at he
      dsimp only at he
      rw [m1] at he
      cases he
      refine ⟨good_of m2 h.sound.some_compound h.sound.distinct rfl rfl (fun d _ => update_nonneg (by simpa using hx) (fun _ => le_rfl) d) ?_ h.known,
        good_of (p := { p with masses := p.masses.set i (some (content p c - x)), T := some t, H := _ }) h2 h.sound.some_compound h.sound.distinct rfl h.sound.not_coal
          (fun d _ => update_nonneg (by linarith) h.nonneg d) rfl h.known⟩
      change vadd (some 0) (some (x * unitH db c t)) = some (hOf db p.mat _ t)
      rw [hOf_update h.sound.distinct hin, hOf_zero]
      change some (0 + x * unitH db c t) = _
      congr 1; ring
    · rw [C61_compound_too_much db p h.sound c hin x (not_le.1 hle)] at he
      cases he
  · unfold Package.extract Package.extractCompoundMass at he
    dsimp only at he
    rw [if_pos rfl, if_pos hin, createEmpty h.known] at he
    cases he
    exact ⟨empty_good h.known h.sound.some_compound h.sound.distinct _ _, h⟩

theorem newPackage_good {db : Db} {m : Material} (hk : Known db m) {a : List V} {P T : V} {b : Bool} {hhv : Option V} {p : Package} (h : newPackage db m a P T b hhv = .ok p)
    (hs : Sound p) (hn : NonNeg p) : p.mat = m ∧ Good db p := by
  have e : p.mat = m ∧ p.masses = a ∧ p.T = T ∧ p.isCoal = b := by
    unfold newPackage at h
    dsimp only at h
    split at h
    · cases hc : calcH db ⟨m, a, P, T, some 0, b, hhv⟩ T with
      | error e => rw [hc] at h; cases h
      | ok v => rw [hc] at h; cases h; exact ⟨rfl, rfl, rfl, rfl⟩
    · cases h; exact ⟨rfl, rfl, rfl, rfl⟩
  obtain ⟨e1, e2, e3, e4⟩ := e
  refine ⟨e1, ?_⟩
  obtain ⟨t, ht⟩ := hs.temperature
  have hr : Rep m a (content p) := e1 ▸ e2 ▸ hs.rep
  have hb : b = false := e4 ▸ hs.not_coal
  rw [hb, ← e3, ht, newPackage_nonneg hk hr (fun c _ => hn c)] at h
  have hH : p.H = some (hOf db p.mat (content p) t) := by
    rw [e1]; exact (congrArg Package.H (Except.ok.inj h)).symm
  exact good_of hs.rep hs.some_compound hs.distinct ht hs.not_coal (fun c _ => hn c) hH (e1 ▸ hk)

theorem created_good {db : Db} {m : Material} {a : Option Str} {x P T : V} {b : Bool} {p : Package} (hk : Known db m) (h : m.createPackage db a x P T b = .ok p)
    (hs : Sound p) (hn : NonNeg p) : Good db p := by
  unfold Material.createPackage at h
  cases a with
  | none => exact (newPackage_good hk h hs hn).2
  | some name =>
    dsimp only at h
    split at h
    · cases h
    · split at h
      · cases h
      · split at h
        · cases h
        · exact (newPackage_good hk h hs hn).2

theorem scaled_good {db : Db} {p r : Package} {k : ℝ} (ih : Good db p) (h : p.mul db true (some k) = .ok r) : Good db r := by
  have hk0 : 0 ≤ k := by
    by_contra hk
    rw [C60_scale_refused db p k (not_le.1 hk)] at h; cases h
  obtain ⟨t, ht, _⟩ := ih.consistent
  have hsc := ih.sound.rep.scale k
  unfold Package.mul at h
  rw [if_pos rfl, if_neg (show ¬ vgt (some 0) (some k) from not_lt.2 hk0), ht, newPackage_nonneg ih.known hsc (fun c _ => mul_nonneg (ih.nonneg c) hk0)] at h
  cases h
  exact good_of hsc ih.sound.some_compound ih.sound.distinct rfl rfl (fun c _ => mul_nonneg (ih.nonneg c) hk0) rfl ih.known

theorem compound_good {db : Db} {p r : Package} {c : Str} {x : ℝ} (ih : Good db p) (hx : 0 ≤ x) (h : p.add db (.tup c true (some x)) = .ok r) : Good db r := by
  obtain ⟨t, ht, _⟩ := ih.consistent
  have hH := consistent_rep ih.sound.rep ht ih.consistent
  unfold Package.add at h
  dsimp only at h
  rw [if_pos rfl] at h
  by_cases hc : c ∈ p.mat.compounds
  · obtain ⟨ms, m1, m2⟩ := addTuple_rep ih.known ih.sound.distinct ih.sound.rep ht hc x
    rw [m1] at h
    cases h
    refine good_of (p := { p with masses := ms, H := _ }) m2 ih.sound.some_compound ih.sound.distinct ht ih.sound.not_coal
      (fun d _ => update_nonneg (add_nonneg (ih.nonneg c) hx) ih.nonneg d) ?_ ih.known
    change vadd p.H _ = some (hOf db p.mat _ t)
    rw [hH, hOf_update ih.sound.distinct hc]
    change some (_ + x * unitH db c t) = _
    congr 1; ring
  · rw [addTuple_absent hc] at h; cases h

theorem heated_good {db : Db} {p r : Package} {t : ℝ} (ih : Good db p) (h : p.setT db (some t) = (.ok (), r)) : Good db r := by
  rw [setT_rep ih.known ih.sound.not_coal ih.sound.rep t] at h
  cases h
  exact good_of (p := { p with T := some t, H := _ }) ih.sound.rep ih.sound.some_compound ih.sound.distinct rfl ih.sound.not_coal (fun c _ => ih.nonneg c) rfl ih.known

/-- **C62 (histories).** After any sequence of creations, scalings, additions of compounds at the temperature of the package, extractions and
changes of temperature, the enthalpy a package reports is that of its contents at its temperature. -/
theorem C62_history_partial (db : Db) (p : Package) (h : Made db p) : Consistent db p ∧ NonNeg p := by
  suffices Good db p from ⟨this.consistent, this.nonneg⟩
  induction h with
  | created hk h hs hn => exact created_good hk h hs hn
  | scaled _ h ih => exact scaled_good ih h
  | compound _ hx h ih => exact compound_good ih hx h
  | heated _ h ih => exact heated_good ih h
  | part _ hpos hx h ih => exact (extractMass_good ih hpos hx h).1
  | rest _ hpos hx h ih => exact (extractMass_good ih hpos hx h).2
  | compoundPart _ h ih => exact (extractCompound_good ih h).1
  | compoundRest _ h ih => exact (extractCompound_good ih h).2
  | massPart _ hx h ih => exact (extractCompoundMass_good ih hx h).1
  | massRest _ hx h ih => exact (extractCompoundMass_good ih hx h).2

end Auxi.Thermo.Props
