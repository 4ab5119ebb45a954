import Verif.Spec.ShippedThermo
import Verif.Props.ThermoChem
import Verif.Props.PhysIdeal
import Mathlib.Tactic.Linarith
import Mathlib.Tactic.Positivity

/-! # The default data: a certified check that the heat capacities are positive -/
namespace Auxi.ThermoChem
open Spec

/-- A lower bound of a term on `[lo, hi]`. -/
def termLow (lo hi : ℚ) (t : ℚ × ℤ) : ℚ := if (decide (0 ≤ t.1)) = (decide (0 ≤ t.2)) then t.1 * lo ^ t.2 else t.1 * hi ^ t.2

/-- Bisection: the terms have a positive sum on `[lo, hi]`. -/
def posOn (ts : List (ℚ × ℤ)) : ℕ → ℚ → ℚ → Bool
  | 0, lo, hi => decide (0 < (ts.map (termLow lo hi)).sum)
  | n + 1, lo, hi => decide (0 < (ts.map (termLow lo hi)).sum) || (posOn ts n lo ((lo + hi) / 2) && posOn ts n ((lo + hi) / 2) hi)

theorem termLow_le {lo hi : ℚ} (h0 : 0 < lo) {T : ℝ} (h1 : (lo : ℝ) ≤ T) (h2 : T ≤ (hi : ℝ)) (t : ℚ × ℤ) :
    ((termLow lo hi t : ℚ) : ℝ) ≤ (t.1 : ℝ) * T ^ t.2 := by
  obtain ⟨c, e⟩ := t
  have l0 : (0 : ℝ) < lo := by exact_mod_cast h0
  have T0 : 0 < T := l0.trans_le h1
  have hi0 : (0 : ℝ) < hi := T0.trans_le h2
  have up : ∀ {x y : ℝ}, 0 < x → x ≤ y → 0 ≤ e → x ^ e ≤ y ^ e := fun hx hxy he => by
    lift e to ℕ using he
    rw [zpow_natCast, zpow_natCast]
    exact pow_le_pow_left₀ hx.le hxy _
  have dn : ∀ {x y : ℝ}, 0 < x → x ≤ y → ¬ 0 ≤ e → y ^ e ≤ x ^ e := fun {x y} hx hxy he => by
    obtain ⟨n, hn⟩ := Int.exists_eq_neg_ofNat (le_of_lt (not_le.1 he))
    rw [hn, zpow_neg, zpow_neg, zpow_natCast, zpow_natCast]
    exact inv_anti₀ (by positivity) (pow_le_pow_left₀ hx.le hxy _)
  unfold termLow
  dsimp only
  by_cases hc : 0 ≤ c <;> by_cases he : 0 ≤ e
  · have hc' : (0 : ℝ) ≤ c := by exact_mod_cast hc
    rw [if_pos (by simp [hc, he])]; push_cast
    exact mul_le_mul_of_nonneg_left (up l0 h1 he) hc'
  · have hc' : (0 : ℝ) ≤ c := by exact_mod_cast hc
    rw [if_neg (by simp [hc, he])]; push_cast
    exact mul_le_mul_of_nonneg_left (dn T0 h2 he) hc'
  · have hc' : (c : ℝ) ≤ 0 := by exact_mod_cast (le_of_lt (not_le.1 hc))
    rw [if_neg (by simp [hc, he])]; push_cast
    exact mul_le_mul_of_nonpos_left (up T0 h2 he) hc'
  · have hc' : (c : ℝ) ≤ 0 := by exact_mod_cast (le_of_lt (not_le.1 hc))
    rw [if_pos (by simp [hc, he])]; push_cast
    exact mul_le_mul_of_nonpos_left (dn l0 h1 he) hc'

theorem low_le {lo hi : ℚ} (h0 : 0 < lo) {T : ℝ} (h1 : (lo : ℝ) ≤ T) (h2 : T ≤ (hi : ℝ)) (ts : List (ℚ × ℤ)) :
    (((ts.map (termLow lo hi)).sum : ℚ) : ℝ) ≤ (ts.map (fun t => (t.1 : ℝ) * T ^ t.2)).sum := by
  induction ts with
  | nil => simp
  | cons t l ih =>
    rw [List.map_cons, List.map_cons, List.sum_cons, List.sum_cons, Rat.cast_add]
    exact add_le_add (termLow_le h0 h1 h2 t) ih

theorem posOn_sound (ts : List (ℚ × ℤ)) : ∀ (n : ℕ) {lo hi : ℚ}, 0 < lo → posOn ts n lo hi = true → ∀ {T : ℝ}, (lo : ℝ) ≤ T → T ≤ (hi : ℝ) →
    0 < (ts.map (fun t => (t.1 : ℝ) * T ^ t.2)).sum := by
  have base : ∀ {lo hi : ℚ}, 0 < lo → 0 < (ts.map (termLow lo hi)).sum → ∀ {T : ℝ}, (lo : ℝ) ≤ T → T ≤ (hi : ℝ) →
      0 < (ts.map (fun t => (t.1 : ℝ) * T ^ t.2)).sum := fun h0 h T h1 h2 =>
    lt_of_lt_of_le (by exact_mod_cast h) (low_le h0 h1 h2 ts)
  intro n
  induction n with
  | zero => intro lo hi h0 h T h1 h2; exact base h0 (of_decide_eq_true h) h1 h2
  | succ n ih =>
    intro lo hi h0 h T h1 h2
    unfold posOn at h
    rw [Bool.or_eq_true, Bool.and_eq_true] at h
    rcases h with h | ⟨ha, hb⟩
    · exact base h0 (of_decide_eq_true h) h1 h2
    · have h12 : lo ≤ hi := by exact_mod_cast h1.trans h2
      rcases le_total T (((lo + hi) / 2 : ℚ) : ℝ) with h | h
      · exact ih h0 ha h1 h
      · exact ih (by linarith) hb h h2

/-- What every phase in the files looks like: one record from 298.15 K to 3000 K, a positive reference entropy, no brackets in the name. -/
def plain (p : String × DataPhase) : Bool :=
  (p.1.toList.all (fun c => c ≠ '[' && c ≠ ']')) && decide (0 < p.2.Sref) &&
  match p.2.records with
  | [(k, r)] => decide (k = 3000 ∧ r.Tmin = 5963 / 20 ∧ r.Tmax = 3000)
  | _ => false

/-- The heat capacity is positive over the range of the data. -/
def warm (p : String × DataPhase) : Bool := p.2.records.all (fun r => posOn r.2.terms 4 r.2.Tmin r.2.Tmax)

/-- The check of the whole data set. -/
def checked : Bool :=
  shipped.all (fun c => (c.1.toList.all (fun x => x ≠ '[' && x ≠ ']')) && decide (0 < c.2.molarMass) && decide ((c.2.phases.map (·.1)).Nodup) &&
    c.2.phases.all (fun p => plain p && (warm p || decide ((c.1, p.1) = ("S", "Smono")) || decide ((c.1, p.1) = ("Sn", "Sgray")))))

theorem checked_true : checked = true := by decide +kernel
theorem formulas_nodup : (shipped.map (·.1)).Nodup := by decide +kernel

/-- A phase as the files give it. -/
structure Good (p : Phase) (r : CpRecord) : Prop where
  covers : Covers p 298.15 [(3000, r)]
  mag : p.mag = none
  Sref : 0 < p.Sref

/-- What the files say about a substance. -/
structure Data (db : List (Str × Compound)) (f ph : String) (c : Compound) (p : Phase) (r : CpRecord) : Prop where
  f1 : '[' ∉ f.toList
  f2 : ']' ∉ f.toList
  p1 : '[' ∉ ph.toList
  p2 : ']' ∉ ph.toList
  found : db.lookup f.toList = some c
  phase : c.phases.lookup ph.toList = some p
  mass : 0 < c.molarMass
  good : Good p r
  warm : text f ph ∉ odd → ∀ T : ℝ, 298.15 ≤ T → T ≤ 3000 → 0 < r.Cp T

theorem brackets {l : List Char} (h : l.all (fun c => c ≠ '[' && c ≠ ']') = true) : '[' ∉ l ∧ ']' ∉ l := by
  rw [List.all_eq_true] at h
  constructor <;> intro hm <;> have := h _ hm <;> simp at this

theorem keys_nodup {α β : Type} (g : α → β) {l : List (String × α)} (h : (l.map (·.1)).Nodup) : ((l.map (fun c => (c.1.toList, g c.2))).map (·.1)).Nodup := by
  rw [List.map_map]
  have : (Prod.fst ∘ fun c : String × α => (c.1.toList, g c.2)) = String.toList ∘ Prod.fst := rfl
  rw [this, ← List.map_map]
  exact h.map (fun a b hab => String.toList_injective hab)

theorem ships_data {db : List (Str × Compound)} (h : Loaded db) {f ph : String} {dc : DataCompound} {dp : DataPhase} (hc : (f, dc) ∈ shipped)
    (hp : (ph, dp) ∈ dc.phases) : ∃ r, Data db f ph dc.compound dp.phase r := by
  have k := checked_true
  unfold checked at k
  rw [List.all_eq_true] at k
  have k1 := k _ hc
  simp only [Bool.and_eq_true] at k1
  obtain ⟨⟨⟨a1, a2⟩, a3⟩, a4⟩ := k1
  rw [List.all_eq_true] at a4
  have k2 := a4 _ hp
  rw [Bool.and_eq_true] at k2
  obtain ⟨b1, b2⟩ := k2
  unfold plain at b1
  simp only [Bool.and_eq_true] at b1
  obtain ⟨⟨b3, b4⟩, b5⟩ := b1
  cases hr : dp.records with
  | nil => rw [hr] at b5; simp at b5
  | cons e l =>
    cases l with
    | cons e' l' => rw [hr] at b5; simp at b5
    | nil =>
      obtain ⟨key, r⟩ := e
      rw [hr] at b5
      obtain ⟨rfl, c1, c2⟩ := of_decide_eq_true b5
      have hrec : dp.phase.records = [(3000, r.record)] := by unfold DataPhase.phase; rw [hr]; simp
      have t1 : r.record.Tmin = 298.15 := by unfold DataRecord.record; rw [c1]; norm_num
      have t2 : r.record.Tmax = 3000 := by unfold DataRecord.record; rw [c2]; norm_num
      refine ⟨r.record, ⟨(brackets a1).1, (brackets a1).2, (brackets b3).1, (brackets b3).2, ?_, ?_, ?_, ⟨⟨by norm_num, by simp, ?_, ?_⟩, rfl, ?_⟩, ?_⟩⟩
      · refine Phys.Props.lookup_of_mem ?_ ((h.mem_iff).2 (List.mem_map.2 ⟨_, hc, rfl⟩))
        exact ((h.map _).nodup_iff).2 (keys_nodup DataCompound.compound formulas_nodup)
      · exact Phys.Props.lookup_of_mem (keys_nodup DataPhase.phase (of_decide_eq_true a3)) (List.mem_map.2 ⟨_, hp, rfl⟩)
      · change (0 : ℝ) < (dc.molarMass : ℝ)
        exact_mod_cast of_decide_eq_true a2
      · rw [hrec]
      · exact ⟨t2.symm, t1, by rw [t2]; norm_num, trivial⟩
      · change (0 : ℝ) < (dp.Sref : ℝ)
        exact_mod_cast of_decide_eq_true b4
      · intro ho T h1 h2
        have hw : warm (ph, dp) = true := by
          rw [Bool.or_eq_true, Bool.or_eq_true] at b2
          rcases b2 with (b2 | b2) | b2
          · exact b2
          · exfalso; have := of_decide_eq_true b2; obtain ⟨rfl, rfl⟩ := Prod.mk.inj this; exact ho (by simp [odd])
          · exfalso; have := of_decide_eq_true b2; obtain ⟨rfl, rfl⟩ := Prod.mk.inj this; exact ho (by simp [odd])
        unfold warm at hw
        rw [List.all_eq_true] at hw
        have hw := hw (3000, r) (by rw [hr]; simp)
        rw [c1, c2] at hw
        have := posOn_sound r.terms 4 (by norm_num) hw (T := T) (by norm_num at h1 ⊢; linarith) (by exact_mod_cast h2)
        rw [Cp_sum]
        unfold DataRecord.record
        rw [List.map_map]
        refine lt_of_lt_of_eq this (congrArg List.sum (List.map_congr_left (fun t _ => ?_)))
        change (t.1 : ℝ) * T ^ t.2 = (t.1 : ℝ) * T ^ ((t.2 : ℤ) : ℝ)
        rw [Real.rpow_intCast]

/-- The heat capacity of such a phase: the polynomial, constant above 3000 K. -/
theorem good_Cp {p : Phase} {r : CpRecord} (g : Good p r) (T : ℝ) : p.Cp T = .ok (if T < 3000 then r.Cp T else r.Cp 3000) := by
  rw [phase_Cp g.covers]
  have : p.CpMag T = 0 := by simp [Phase.CpMag, g.mag]
  rw [this, add_zero]
  unfold cpOf
  rw [piece_single]

theorem magOK {p : Phase} (h : p.mag = none) : PhaseMagOK p := fun m hm => by rw [h] at hm; cases hm

end Auxi.ThermoChem
