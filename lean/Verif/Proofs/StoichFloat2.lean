import Mathlib.Data.List.Perm.Subperm
import Verif.Proofs.StoichFloat
import Verif.Proofs.Within

/-! # Lemmas: molar masses in floating point -/
namespace Auxi.StoichFloat
open Auxi Auxi.Stoich Auxi.Stoich.Spec Auxi.Stoich.Props Auxi.Rounding Auxi.StoichFloat.Spec
open Auxi.Chem (Num fl int)

variable {rnd : ℚ → ℚ} {u η v t N : ℚ}

theorem parsed {s : Str} {c : Compound} (h : parseCompound s = .ok c) : (c.count.map (·.1)).Nodup ∧ ∀ e ∈ c.count, Known e.1 := by
  unfold parseCompound at h
  split at h
  · cases h
  · rename_i t ht
    obtain ⟨s1, s2, s3, _⟩ := visitTree_spec t c h
    exact ⟨s2, fun e he => s3 _ ((s1 _).1 (List.mem_map_of_mem he))⟩

theorem lookup_mem {l : Counts} (hn : (l.map (·.1)).Nodup) {k : Str} {x : ℚ} (h : (k, x) ∈ l) : l.lookup k = some x := by
  induction l with
  | nil => cases h
  | cons a l ih =>
    obtain ⟨k', x'⟩ := a
    rw [List.map_cons, List.nodup_cons] at hn
    rw [List.lookup_cons]
    rcases List.mem_cons.1 h with e | h2
    · cases e; simp
    · have : k ≠ k' := by rintro rfl; exact hn.1 (List.mem_map.2 ⟨_, h2, rfl⟩)
      rw [show (k == k') = false by simpa using this]
      exact ih hn.2 h2

theorem below_of_small {s : Str} {c : Compound} (h : parseCompound (strip s) = .ok c) (hS : Small N s) : Below N c.count := by
  rintro ⟨k, x⟩ he
  refine hS k x ?_
  unfold Stoich.coefficient
  rw [h]
  simp only [Except.map, Counts.get, lookup_mem (parsed h).1 he, Option.getD_some]

theorem table_bounds : ∀ x ∈ elementTable, 1 ≤ massOf x.1.toList ∧ massOf x.1.toList ≤ 272 := by decide +kernel

theorem massOf_bounds {e : Str} (h : Known e) : 1 ≤ massOf e ∧ massOf e ≤ 272 := by
  obtain ⟨x, hx, rfl⟩ := h
  exact table_bounds x hx

theorem kinds_le {s : Str} {c : Compound} (h : parseCompound s = .ok c) : c.count.length ≤ 111 := by
  obtain ⟨h1, h2⟩ := parsed h
  have : (c.count.map (·.1)).length ≤ (elementTable.map (fun e => e.1.toList)).length := by
    refine (h1.subperm ?_).length_le
    intro k hk
    obtain ⟨e, he, rfl⟩ := List.mem_map.1 hk
    obtain ⟨x, hx, hx'⟩ := h2 e he
    exact List.mem_map.2 ⟨x, hx, hx'⟩
  simpa [elementTable] using this

theorem kinds_eq {s : Str} {c : Compound} (h : parseCompound (strip s) = .ok c) : elements [strip s] = .ok (c.count.map (·.1)) ∧ kinds s = c.count.length := by
  have e : elements [strip s] = .ok (c.count.map (·.1)) := by unfold elements; rw [h]; simp [elements]
  exact ⟨e, by unfold kinds; rw [e]; simp⟩

/-- The mass of `n` atoms of an element, as the machine has it. -/
def term (rnd : ℚ → ℚ) (e : Str × ℚ) : ℚ := rnd (rnd (massOf e.1) * e.2)

theorem term_spec (A : Arith rnd u η v t N) {e : Str × ℚ} (hk : Known e.1) (hw : ∃ n : ℕ, e.2 = n) :
    Within v 2 (massOf e.1 * e.2) (term rnd e) ∧ rnd (term rnd e) = term rnd e ∧ (e.2 = 0 → term rnd e = 0) ∧ (e.2 ≠ 0 → 1 ≤ term rnd e) := by
  obtain ⟨n, hn⟩ := hw
  have hb := massOf_bounds hk
  have ha : 1 ≤ rnd (massOf e.1) := A.ieee.float_le A.ieee.one hb.1
  have w1 := within_round A (x := massOf e.1) (.inr (A.t1.trans hb.1))
  have n0 : (0 : ℚ) ≤ e.2 := hn ▸ Nat.cast_nonneg n
  have w2 := w1.mul A (Within.self (v := v) n0)
  by_cases h0 : e.2 = 0
  · have : term rnd e = 0 := by unfold term; rw [h0, mul_zero, A.ieee.zero]
    refine ⟨?_, ?_, fun _ => this, fun h => absurd h0 h⟩
    · rw [this, h0, mul_zero]; exact (Within.self le_rfl).mono A (Nat.zero_le _)
    · rw [this, A.ieee.zero]
  · have h1 : 1 ≤ e.2 := by
      rw [hn] at h0 ⊢
      exact_mod_cast Nat.one_le_iff_ne_zero.2 (by exact_mod_cast h0)
    have h2 : 1 ≤ rnd (massOf e.1) * e.2 := by nlinarith
    refine ⟨w2.trans A (within_round A (.inr (A.t1.trans h2))), A.ieee.idem _, fun h => absurd h h0, fun _ => A.ieee.float_le A.ieee.one h2⟩

theorem compoundMass_eq (A : Arith rnd u η v t N) {s : Str} {c : Compound} (h : parseCompound (strip s) = .ok c) (hS : Small N s) :
    compoundMass rnd c = sumF rnd (c.count.map (term rnd)) := by
  unfold compoundMass
  rw [compoundCount_lift A.ieee.zero A.whole h (below_of_small h hS)]
  unfold lift
  rw [List.map_map]
  rfl

/-- The molar mass the machine calculates. -/
theorem mass_facts (A : Arith rnd u η v t N) {s : Str} {c : Compound} (h : parseCompound (strip s) = .ok c) (hS : Small N s) :
    rnd (compoundMass rnd c) = compoundMass rnd c ∧ Within v (c.count.length + 2) c.molarMass (compoundMass rnd c) ∧ compoundMass rnd c ≤ 2 ^ 16 * N ∧
      (c.molarMass = 0 ↔ compoundMass rnd c = 0) ∧ (compoundMass rnd c ≠ 0 → 1 ≤ compoundMass rnd c) ∧ (∀ e ∈ c.count, term rnd e ≤ compoundMass rnd c) ∧
      Within v c.count.length (c.count.map (term rnd)).sum (compoundMass rnd c) := by
  obtain ⟨p1, p2⟩ := parsed h
  have pw : ∀ e ∈ c.count, ∃ n : ℕ, e.2 = n := whole_countAll 1 c.groups (acc := []) (fun e he => by (cases he))
  have bl := below_of_small h hS
  have ht := fun e he => term_spec A (p2 e he) (pw e he)
  have hs := sumF_within A (l := c.count.map (term rnd)) (by
    intro x hx
    obtain ⟨e, he, rfl⟩ := List.mem_map.1 hx
    exact ⟨(ht e he).2.1, (ht e he).1.nonneg A⟩)
  rw [← compoundMass_eq A h hS, List.length_map] at hs
  have f2 : Within v 2 c.molarMass (c.count.map (term rnd)).sum := by
    unfold Compound.molarMass
    refine within_sum A ?_
    rw [List.forall₂_map_left_iff, List.forall₂_map_right_iff]
    exact List.forall₂_same.2 (fun e he => (ht e he).1)
  have W : Within v (c.count.length + 2) c.molarMass (compoundMass rnd c) := by rw [Nat.add_comm]; exact f2.trans A hs.1
  have le : ∀ e ∈ c.count, term rnd e ≤ compoundMass rnd c := fun e he => hs.2.2 _ (List.mem_map_of_mem he)
  have z1 : c.molarMass = 0 → compoundMass rnd c = 0 := by
    intro h0
    have := W.2.2
    rw [h0] at this
    have q := pow_pos' A (c.count.length + 2)
    have := W.nonneg A
    nlinarith
  have big : c.molarMass ≠ 0 → 1 ≤ compoundMass rnd c := by
    intro h0
    have : ∃ e ∈ c.count, e.2 ≠ 0 := by
      by_contra hc
      push Not at hc
      refine h0 ?_
      unfold Compound.molarMass
      refine List.sum_eq_zero (fun x hx => ?_)
      obtain ⟨e, he, rfl⟩ := List.mem_map.1 hx
      rw [hc e he, mul_zero]
    obtain ⟨e, he, h1⟩ := this
    exact ((ht e he).2.2.2 h1).trans (le e he)
  refine ⟨hs.2.1, W, ?_, ⟨z1, fun h0 => ?_⟩, fun h0 => big (fun h1 => h0 (z1 h1)), le, hs.1⟩
  · have hM : c.molarMass ≤ 111 * (272 * N) := by
      have : c.molarMass ≤ c.count.length • (272 * N) := by
        unfold Compound.molarMass
        have := List.sum_le_card_nsmul (c.count.map (fun e => (atomicMass e.1).getD 0 * e.2)) (272 * N) (fun x hx => by
          obtain ⟨e, he, rfl⟩ := List.mem_map.1 hx
          have b1 := massOf_bounds (p2 e he)
          have b2 := bl e he
          obtain ⟨n, hn⟩ := pw e he
          have b3 : 0 ≤ e.2 := hn ▸ Nat.cast_nonneg n
          exact mul_le_mul b1.2 b2 b3 (by norm_num))
        rwa [List.length_map] at this
      refine this.trans ?_
      rw [nsmul_eq_mul]
      have h1 : (c.count.length : ℚ) ≤ 111 := by exact_mod_cast kinds_le h
      exact mul_le_mul_of_nonneg_right h1 (by have := A.N0; linarith)
    have hh := half_le A (k := c.count.length + 2) (by have := kinds_le h; omega)
    have h2 := W.2.2
    have h3 := W.nonneg A
    have := A.N0
    nlinarith
  · by_contra h1
    have := big h1
    rw [h0] at this
    linarith

theorem molarMass_cases (A : Arith rnd u η v t N) (s : Str) (hS : Small N s) :
    (∃ e, Stoich.molarMass s = .error e ∧ molarMass rnd s = .error e) ∨
    ∃ x y, Stoich.molarMass s = .ok x ∧ molarMass rnd s = .ok y ∧ rnd y = y ∧ Within v (kinds s + 2) x y ∧ y ≤ 2 ^ 16 * N ∧ (x = 0 ↔ y = 0) ∧ (y ≠ 0 → 1 ≤ y) := by
  by_cases h0 : s = []
  · refine .inr ⟨0, 0, by simp [Stoich.molarMass, h0], by simp [molarMass, h0], A.ieee.zero, (Within.self le_rfl).mono A (Nat.zero_le _), ?_, Iff.rfl, fun h => absurd rfl h⟩
    have := A.N0
    positivity
  · unfold Stoich.molarMass molarMass
    rw [if_neg h0, if_neg h0]
    cases hp : parseCompound (strip s) with
    | error e => exact .inl ⟨e, rfl, rfl⟩
    | ok c =>
      obtain ⟨f1, f2, f3, f4, f5, -⟩ := mass_facts A hp hS
      rw [← (kinds_eq hp).2] at f2
      exact .inr ⟨_, _, rfl, rfl, f1, f2, f3, f4, f5⟩

end Auxi.StoichFloat
