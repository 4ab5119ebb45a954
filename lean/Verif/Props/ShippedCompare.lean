import Verif.Props.ShippedFluids
import Verif.Props.ShippedThermo

/-! # C111: the two sources of gas heat capacities compared -/
namespace Auxi.Phys.Props
open Auxi Auxi.Phys Spec
open Auxi.PolyPos (eval posOn smul mul add)
open Auxi.ThermoChem (shipped Compound DataRecord DataPhase DataCompound)

/-- The gases that have a heat capacity both in the module `gases` and, as phase `G`, in the default thermochemical data. -/
def both : List String := ["NH3", "CO2", "CO", "N2", "O2", "H2O"]

/-- `c x^n`. -/
def mono (n : ℕ) (c : ℚ) : List ℚ := List.replicate n 0 ++ [c]

theorem eval_zeros (n : ℕ) (x : ℝ) : eval (List.replicate n 0) x = 0 := by
  induction n with
  | zero => rfl
  | succ n ih => simp [List.replicate_succ, eval, ih]

theorem eval_mono (n : ℕ) (c : ℚ) (x : ℝ) : eval (mono n c) x = c * x ^ n := by
  unfold mono; rw [eval_append, eval_zeros]; simp; ring

/-- `x²` times a sum of terms. -/
def lift (ts : List (ℚ × ℤ)) : List ℚ := ts.foldr (fun t p => add (mono (t.2 + 2).toNat t.1) p) []

theorem eval_lift {ts : List (ℚ × ℤ)} (h : ∀ t ∈ ts, -2 ≤ t.2) {x : ℝ} (hx : 0 < x) : eval (lift ts) x = x ^ 2 * (ts.map (fun t => (t.1 : ℝ) * x ^ t.2)).sum := by
  induction ts with
  | nil => simp [lift, eval]
  | cons t ts ih =>
    have e : lift (t :: ts) = add (mono (t.2 + 2).toNat t.1) (lift ts) := rfl
    rw [e, PolyPos.eval_add, ih (fun t ht => h t (List.mem_cons_of_mem _ ht)), eval_mono, List.map_cons, List.sum_cons, mul_add]
    congr 1
    have h2 := h t List.mem_cons_self
    have : x ^ (t.2 + 2).toNat = x ^ 2 * x ^ t.2 := by
      rw [← zpow_natCast, Int.toNat_of_nonneg (by omega), zpow_add₀ hx.ne', mul_comm]; norm_cast
    rw [this]; ring

/-- The check for one gas: the fitted value is within the fraction `q` of the other one. -/
def cpCheck (q : ℚ) (f : String) : Bool := match gasData.lookup f.toList, shipped.lookup f with
  | some d, some c => match c.phases.lookup "G" with
    | some p => match p.records with
      | [(_, r)] => decide ((∀ t ∈ r.terms, -2 ≤ t.2) ∧ d.Cp.tmax < 3000 ∧ 0 < c.molarMass ∧ max d.Cp.tmin 298.15 < d.Cp.tmax) &&
          posOn 14 (max d.Cp.tmin 298.15) d.Cp.tmax (lift r.terms) &&
          posOn 14 (max d.Cp.tmin 298.15) d.Cp.tmax (add (smul (1 + q) (lift r.terms)) (smul (-c.molarMass) (0 :: 0 :: d.Cp.low))) &&
          posOn 14 (max d.Cp.tmin 298.15) d.Cp.tmax (add (smul (-(1 - q)) (lift r.terms)) (smul c.molarMass (0 :: 0 :: d.Cp.low)))
      | _ => false
    | none => false
  | _, _ => false

theorem cp_checked : both.all (fun f => cpCheck (if f = "CO" ∨ f = "H2O" then 0.1 else 0.05) f) = true := by decide +kernel

theorem lookup_mem {α : Type} {l : List (String × α)} {k : String} {v : α} (h : l.lookup k = some v) : (k, v) ∈ l := by
  induction l with
  | nil => simp at h
  | cons e l ih =>
    obtain ⟨a, b⟩ := e
    rw [List.lookup_cons] at h
    by_cases hk : k = a
    · subst hk; simp at h; subst h; exact List.mem_cons_self
    · rw [beq_false_of_ne hk] at h; exact List.mem_cons_of_mem _ (ih h)

/-- The values the two modules give. -/
theorem compare_values {db : List (Str × Compound)} (h : ThermoChem.Spec.Loaded db) {f : String} {d : DataGas} {c : DataCompound} {p : DataPhase} {kr : ℚ} {r : DataRecord}
    (hd : gasData.lookup f.toList = some d) (hs : shipped.lookup f = some c) (hp : c.phases.lookup "G" = some p) (hr : p.records = [(kr, r)]) {T m : ℝ} (h3 : d.Cp.tmax < 3000)
    (hc : Covered f.toList (T + 273.15)) : IsGas f.toList (gasMat f.toList d) ∧ Is (gasMat f.toList d).Cp (T + 273.15) (eval d.Cp.low (T + 273.15)) ∧
      ThermoChem.Cp db (ThermoChem.Spec.text f "G") T m = .ok ((r.terms.map (fun t => (t.1 : ℝ) * (T + 273.15) ^ t.2)).sum / 3600000 / (c.molarMass : ℝ) * m) := by
  have hmem := mem_of_lookup hd
  have ga := gas_at hmem hc
  obtain ⟨lo, hi, hrg, h0, h1⟩ := hc
  obtain ⟨rfl, rfl⟩ := gas_range hmem hrg
  obtain ⟨rr, D⟩ := ThermoChem.ships_data h (lookup_mem hs) (lookup_mem hp)
  have er : rr = r.record := by
    have := D.good.covers.perm
    unfold DataPhase.phase at this
    rw [hr, List.map_cons, List.map_nil] at this
    exact (Prod.mk.inj (List.singleton_perm_singleton.1 this)).2
  have hCp : p.phase.Cp (T + 273.15) = .ok (r.terms.map (fun t => (t.1 : ℝ) * (T + 273.15) ^ t.2)).sum := by
    have h3 : T + 273.15 < 3000 := by
      have : (d.Cp.tmax : ℝ) < ((3000 : ℚ) : ℝ) := by exact_mod_cast h3
      push_cast at this
      linarith
    rw [ThermoChem.good_Cp D.good, if_pos h3, er, ThermoChem.Cp_sum]
    unfold DataRecord.record
    rw [List.map_map]
    simp [Function.comp_def]
  exact ⟨⟨d, hmem, rfl⟩, ga.cp, ThermoChem.Props.eval_data D ThermoChem.Phase.Cp hCp m⟩

theorem compare_core {db : List (Str × Compound)} (h : ThermoChem.Spec.Loaded db) {q : ℚ} {f : String} (hk : cpCheck q f = true) {T m : ℝ} (hT : 25 ≤ T) (hm : 0 < m)
    (hc : Covered f.toList (T + 273.15)) : ∃ M : Mat, IsGas f.toList M ∧ ∃ a b : ℝ, Is M.Cp (T + 273.15) a ∧
      ThermoChem.Cp db (ThermoChem.Spec.text f "G") T m = .ok b ∧ 0 < b ∧ (1 - (q : ℝ)) * (3600000 * b / m) < a ∧ a < (1 + (q : ℝ)) * (3600000 * b / m) := by
  unfold cpCheck at hk
  cases hd : gasData.lookup f.toList with
  | none => rw [hd] at hk; simp at hk
  | some d =>
    cases hs : shipped.lookup f with
    | none => rw [hd, hs] at hk; simp at hk
    | some c =>
      rw [hd, hs] at hk
      dsimp only at hk
      cases hp : c.phases.lookup "G" with
      | none => rw [hp] at hk; simp at hk
      | some p =>
        rw [hp] at hk
        dsimp only at hk
        rcases hr : p.records with _ | ⟨⟨kr, r⟩, _ | ⟨_, _⟩⟩
        · rw [hr] at hk; simp at hk
        · rw [hr] at hk
          dsimp only at hk
          simp only [Bool.and_eq_true, decide_eq_true_eq] at hk
          obtain ⟨⟨⟨⟨t1, t2, t3, t4⟩, g1⟩, g2⟩, g3⟩ := hk
          obtain ⟨v1, v2, v3⟩ := compare_values (m := m) h hd hs hp hr t2 hc
          have hmem := mem_of_lookup hd
          have ga := gas_at hmem hc
          obtain ⟨lo, hi, hrg, h0, h1⟩ := hc
          obtain ⟨rfl, rfl⟩ := gas_range hmem hrg
          have h0' : ((max d.Cp.tmin 298.15 : ℚ) : ℝ) ≤ T + 273.15 := by
            rw [Rat.cast_max, max_le_iff]
            exact ⟨h0, by push_cast; norm_num at hT ⊢; linarith⟩
          have x1 := PolyPos.posOn_sound g1 t4 h0' h1
          have x2 := PolyPos.posOn_sound g2 t4 h0' h1
          have x3 := PolyPos.posOn_sound g3 t4 h0' h1
          have T0 := ga.T0
          simp only [PolyPos.eval_add, PolyPos.eval_smul, eval, eval_lift t1 T0] at x1 x2 x3
          push_cast at x1 x2 x3
          generalize (r.terms.map (fun t => (t.1 : ℝ) * (T + 273.15) ^ t.2)).sum = σ at *
          have M0 : (0 : ℝ) < (c.molarMass : ℝ) := by exact_mod_cast t3
          have s0 : 0 < σ := (mul_pos_iff_of_pos_left (by positivity)).1 x1
          have T2 : 0 < (T + 273.15) ^ 2 := by positivity
          have e : 3600000 * (σ / 3600000 / (c.molarMass : ℝ) * m) / m = σ / c.molarMass := by field_simp
          refine ⟨_, v1, _, _, v2, v3, by positivity, ?_, ?_⟩
          · rw [e, ← mul_div_assoc, div_lt_iff₀ M0]
            by_contra hn
            nlinarith [mul_le_mul_of_nonneg_left (not_lt.1 hn) T2.le]
          · rw [e, ← mul_div_assoc, lt_div_iff₀ M0]
            by_contra hn
            nlinarith [mul_le_mul_of_nonneg_left (not_lt.1 hn) T2.le]
        · rw [hr] at hk; simp at hk

theorem isGas_unique {f : Str} {m m' : Mat} (h : IsGas f m) (h' : IsGas f m') : m = m' := by
  obtain ⟨d, hd, rfl⟩ := h
  obtain ⟨d', hd', rfl⟩ := h'
  have := List.inj_on_of_nodup_map gasData_keys hd hd' rfl
  rw [(Prod.mk.inj this).2]

/-- **C111 (partial)**: whenever the default data are loaded, for each of the six gases that have a heat capacity (J/(kg K)) in the module `gases` and one
(kWh/K for a mass in kg) in the thermochemical data, and at every temperature from 25 °C on that the gas data cover, the two agree within 10 %, and within 5 % for ammonia,
carbon dioxide, nitrogen and oxygen. -/
theorem C111_heat_capacity_partial (db : List (Str × Compound)) (h : ThermoChem.Spec.Loaded db) (f : String) (hf : f ∈ both) (M : Mat) (hM : IsGas f.toList M) (T m : ℝ)
    (hT : 25 ≤ T) (hm : 0 < m) (hc : Covered f.toList (T + 273.15)) : ∃ a b : ℝ, Is M.Cp (T + 273.15) a ∧
      ThermoChem.Cp db (ThermoChem.Spec.text f "G") T m = .ok b ∧ |a / (3600000 * b / m) - 1| < 0.1 ∧
      (f ∈ ["NH3", "CO2", "N2", "O2"] → |a / (3600000 * b / m) - 1| < 0.05) := by
  have hk := List.all_eq_true.1 cp_checked f hf
  obtain ⟨M', hM', a, b, ha, hb, b0, h1, h2⟩ := compare_core h hk hT hm hc
  rw [isGas_unique hM' hM] at ha
  have p : 0 < 3600000 * b / m := by positivity
  have key : ∀ q : ℝ, (1 - q) * (3600000 * b / m) < a → a < (1 + q) * (3600000 * b / m) → |a / (3600000 * b / m) - 1| < q := fun q h1 h2 => by
    rw [abs_lt]
    constructor
    · rw [lt_sub_iff_add_lt, lt_div_iff₀ p]; linarith
    · rw [sub_lt_iff_lt_add, div_lt_iff₀ p]; linarith
  have k := key _ h1 h2
  refine ⟨a, b, ha, hb, lt_of_lt_of_le k ?_, fun h4 => ?_⟩
  · split <;> norm_num
  · rw [if_neg (by simp only [List.mem_cons, List.not_mem_nil, or_false] at h4; rcases h4 with rfl | rfl | rfl | rfl <;> decide)] at k
    push_cast at k
    exact k

/-- A concrete case: nitrogen at 500 °C. -/
example : ∃ a b : ℝ, Is (gasMat "N2".toList dataN2).Cp (500 + 273.15) a ∧ ThermoChem.Cp ThermoChem.shippedDb (ThermoChem.Spec.text "N2" "G") 500 1 = .ok b ∧
    |a / (3600000 * b / 1) - 1| < 0.1 ∧ ("N2" ∈ ["NH3", "CO2", "N2", "O2"] → |a / (3600000 * b / 1) - 1| < 0.05) :=
  C111_heat_capacity_partial _ (List.Perm.refl _) "N2" (by simp [both]) _ ⟨dataN2, by simp [gasData], rfl⟩ 500 1 (by norm_num) (by norm_num)
    ⟨100, 1600, by simp [gasRanges], by norm_num, by norm_num⟩

/-- **C111 is violated**: for carbon monoxide at 1000 K the module `gases` gives more than 9 % less, and for water vapour at 373.15 K more than 9 % more, than the
thermochemical data. -/
theorem C111_violated (db : List (Str × Compound)) (h : ThermoChem.Spec.Loaded db) :
    (∃ M : Mat, IsGas "CO".toList M ∧ ∃ a b : ℝ, Is M.Cp (726.85 + 273.15) a ∧ ThermoChem.Cp db (ThermoChem.Spec.text "CO" "G") 726.85 1 = .ok b ∧ a / (3600000 * b / 1) < 0.91) ∧
    ∃ M : Mat, IsGas "H2O".toList M ∧ ∃ a b : ℝ, Is M.Cp (100 + 273.15) a ∧ ThermoChem.Cp db (ThermoChem.Spec.text "H2O" "G") 100 1 = .ok b ∧ 1.09 < a / (3600000 * b / 1) := by
  constructor
  · obtain ⟨v1, v2, v3⟩ := compare_values (f := "CO") (d := dataCO) (c := ⟨28010100000000003 / 1000000000000000000,
      [("G", ⟨-110530, 49389 / 250, [(3000, ⟨5963 / 20, 3000, [(28409 / 1000, 0), (41 / 10000, 1), (-46000, -2)]⟩)]⟩)]⟩) (T := 726.85) (m := 1) h rfl rfl rfl rfl
      (by decide +kernel) ⟨250, 1000, by simp [gasRanges], by norm_num, by norm_num⟩
    refine ⟨_, v1, _, _, v2, v3, ?_⟩
    have e : (726.85 + 273.15 : ℝ) = ((1000 : ℚ) : ℝ) := by norm_num
    rw [e, ← evalQ_cast]
    have hq : evalQ dataCO.Cp.low 1000 < 0.91 * ((28409 / 1000 + 41 / 10000 * 1000 + -46000 / 1000 ^ 2) / (28010100000000003 / 1000000000000000000)) := by decide +kernel
    have hq := (Rat.cast_lt (K := ℝ)).2 hq
    push_cast at hq
    rw [div_lt_iff₀ (by norm_num)]
    norm_num at hq ⊢
    linarith
  · obtain ⟨v1, v2, v3⟩ := compare_values (f := "H2O") (d := dataH2O) (c := ⟨225191 / 12500000,
      [("G", ⟨-241814, 47181 / 250, [(3000, ⟨5963 / 20, 3000, [(30, 0), (10711 / 1000000, 1), (33500, -2)]⟩)]⟩),
       ("L", ⟨-285830, 1399 / 20, [(3000, ⟨5963 / 20, 3000, [(37719 / 500, 0)]⟩)]⟩)]⟩) (T := 100) (m := 1) h rfl rfl rfl rfl
      (by decide +kernel) ⟨373.15, 1073.15, by decide +kernel, by norm_num, by norm_num⟩
    refine ⟨_, v1, _, _, v2, v3, ?_⟩
    have e : (100 + 273.15 : ℝ) = ((373.15 : ℚ) : ℝ) := by norm_num
    rw [e, ← evalQ_cast]
    have hq : 1.09 * ((30 + 10711 / 1000000 * 373.15 + 33500 / 373.15 ^ 2) / (225191 / 12500000)) < evalQ dataH2O.Cp.low 373.15 := by decide +kernel
    have hq := (Rat.cast_lt (K := ℝ)).2 hq
    push_cast at hq
    rw [lt_div_iff₀ (by norm_num)]
    norm_num at hq ⊢
    linarith

end Auxi.Phys.Props
