import Verif.Proofs.Stoich
import Mathlib.Data.List.Count

/-!
# Atom counting and the stoichiometry functions
-/
namespace Auxi.Stoich
open Spec

/-! ### Numbers -/

theorem numVal_aux (d : Str) : ∀ n, d.foldl (fun n c => 10 * n + (c.toNat - '0'.toNat)) n =
    n * 10 ^ d.length + value d := by
  induction d with
  | nil => intro n; simp [value]
  | cons c d ih =>
    intro n
    simp only [List.foldl_cons, ih, value, List.reverse_cons, List.map_append, List.map_cons, List.map_nil, Nat.ofDigits_append,
      List.length_map, List.length_reverse, Nat.ofDigits_singleton, List.length_cons, pow_succ]
    have : '0'.toNat = 48 := rfl
    rw [this]; ring

theorem numVal_eq (d : Str) : numVal d = value d := by
  unfold numVal; rw [numVal_aux d 0]; simp

theorem groupMult_eq {n : Option Str} (h : copies n ≠ 0) : groupMult n = copies n := by
  cases n with
  | none => rfl
  | some d =>
    have : value d ≠ 0 := h
    simp [groupMult, copies, numVal_eq, this]

/-! ### Weighted sums of counts -/

/-- The sum of `w key * count` over the entries of a dictionary. -/
def wsum (w : Str → ℚ) (d : Counts) : ℚ := (d.map (fun e => w e.1 * e.2)).sum

theorem wsum_bump (w : Str → ℚ) (k : Str) (x : ℚ) (d : Counts) : wsum w (bump k x d) = wsum w d + w k * x := by
  induction d with
  | nil => simp [bump, wsum]
  | cons e d ih =>
    obtain ⟨k', v⟩ := e
    simp only [bump]
    split
    · rename_i h; subst h; simp only [wsum, List.map_cons, List.sum_cons]; ring
    · simp only [wsum, List.map_cons, List.sum_cons] at ih ⊢; rw [ih]; ring

theorem wsum_bumpAll (w : Str → ℚ) (m : ℕ) (d acc : Counts) : wsum w (bumpAll m d acc) = wsum w acc + m * wsum w d := by
  induction d generalizing acc with
  | nil => simp [bumpAll, wsum]
  | cons e d ih =>
    obtain ⟨k', v⟩ := e
    simp only [bumpAll, ih, wsum_bump]
    simp only [wsum, List.map_cons, List.sum_cons]; ring

theorem wsum_countAll (w : Str → ℚ) (m : ℕ) (gs : List Grp) (acc : Counts) :
    wsum w (countAll m gs acc) = wsum w acc + m * (gs.map (fun g => wsum w g.count)).sum := by
  induction gs generalizing acc with
  | nil => simp [countAll]
  | cons g gs ih => simp only [countAll, ih, wsum_bumpAll, List.map_cons, List.sum_cons]; ring

theorem keys_bump (k : Str) (x : ℚ) (d : Counts) (q : Str) : q ∈ (bump k x d).map (·.1) ↔ q = k ∨ q ∈ d.map (·.1) := by
  induction d with
  | nil => simp [bump]
  | cons e d ih =>
    obtain ⟨k', v⟩ := e
    simp only [bump]
    split
    · rename_i h; subst h; simp
    · simp only [List.map_cons, List.mem_cons, ih]; tauto

theorem nodup_bump (k : Str) (x : ℚ) (d : Counts) (h : (d.map (·.1)).Nodup) : ((bump k x d).map (·.1)).Nodup := by
  induction d with
  | nil => simp [bump]
  | cons e d ih =>
    obtain ⟨k', v⟩ := e
    simp only [bump]
    simp only [List.map_cons, List.nodup_cons] at h
    split
    · simpa using h
    · rename_i hk
      simp only [List.map_cons, List.nodup_cons]
      refine ⟨?_, ih h.2⟩
      rw [keys_bump]
      rintro (rfl | hq)
      · exact hk rfl
      · exact h.1 hq

theorem keys_bumpAll (m : ℕ) (d acc : Counts) (q : Str) : q ∈ (bumpAll m d acc).map (·.1) ↔ q ∈ d.map (·.1) ∨ q ∈ acc.map (·.1) := by
  induction d generalizing acc with
  | nil => simp [bumpAll]
  | cons e d ih =>
    obtain ⟨k, v⟩ := e
    simp only [bumpAll, ih, keys_bump, List.map_cons, List.mem_cons]; tauto

theorem nodup_bumpAll (m : ℕ) (d acc : Counts) (h : (acc.map (·.1)).Nodup) : ((bumpAll m d acc).map (·.1)).Nodup := by
  induction d generalizing acc with
  | nil => simpa [bumpAll] using h
  | cons e d ih =>
    obtain ⟨k, v⟩ := e
    simp only [bumpAll]
    exact ih _ (nodup_bump _ _ _ h)

theorem keys_countAll (m : ℕ) (gs : List Grp) (acc : Counts) (q : Str) :
    q ∈ (countAll m gs acc).map (·.1) ↔ (∃ g ∈ gs, q ∈ g.count.map (·.1)) ∨ q ∈ acc.map (·.1) := by
  induction gs generalizing acc with
  | nil => simp [countAll]
  | cons g gs ih =>
    simp only [countAll, ih, keys_bumpAll, List.mem_cons, exists_eq_or_imp]
    constructor
    · rintro (h | h | h)
      · exact .inl (.inr h)
      · exact .inl (.inl h)
      · exact .inr h
    · rintro ((h | h) | h)
      · exact .inr (.inl h)
      · exact .inl h
      · exact .inr (.inr h)

theorem nodup_countAll (m : ℕ) (gs : List Grp) (acc : Counts) (h : (acc.map (·.1)).Nodup) : ((countAll m gs acc).map (·.1)).Nodup := by
  induction gs generalizing acc with
  | nil => simpa [countAll] using h
  | cons g gs ih => simp only [countAll]; exact ih _ (nodup_bumpAll _ _ _ h)

theorem get_wsum (d : Counts) (h : (d.map (·.1)).Nodup) (k : Str) : d.get k = wsum (fun q => if q = k then 1 else 0) d := by
  induction d with
  | nil => rfl
  | cons e d ih =>
    obtain ⟨k', v⟩ := e
    simp only [List.map_cons, List.nodup_cons] at h
    simp only [Counts.get, wsum, List.lookup_cons, List.map_cons, List.sum_cons] at ih ⊢
    by_cases hk : k = k'
    · subst hk
      have hz : (d.map (fun e => (if e.1 = k then (1:ℚ) else 0) * e.2)).sum = 0 := by
        apply List.sum_eq_zero
        intro x hx
        rw [List.mem_map] at hx
        obtain ⟨e, he, rfl⟩ := hx
        have : e.1 ≠ k := fun hh => h.1 (hh ▸ List.mem_map_of_mem he)
        simp [this]
      rw [hz]; simp
    · have hk' : ¬ k' = k := fun e => hk e.symm
      have hb : (k == k') = false := by simpa using hk
      simp only [hb, hk', if_false, zero_mul, zero_add]
      exact ih h.2

/-! ### The visitor -/

theorem known_iff (s : Str) : (atomicMass s).isSome = true ↔ Known s := by
  unfold atomicMass Known
  induction elementTable with
  | nil => simp
  | cons e l ih =>
    simp only [List.map_cons, List.lookup_cons, List.mem_cons, exists_eq_or_imp]
    by_cases h : s = e.1.toList
    · subst h; simp
    · have hb : (s == e.1.toList) = false := by simpa using h
      have h' : ¬ e.1.toList = s := fun x => h x.symm
      rw [hb]; simp only [ih, h', false_or]

mutual
theorem visitPart_ok : ∀ (p : Part), (∀ e ∈ partSymbols p, Known e) → ∃ g, visitPart p = .ok g
  | .elem s, h => ⟨.elem s, by
      have := (known_iff s).2 (h s (by simp [partSymbols]))
      simp [visitPart, visitElement, this]⟩
  | .elemN s d, h => ⟨.group [.elem s] (numVal d), by
      have := (known_iff s).2 (h s (by simp [partSymbols]))
      simp [visitPart, visitElement, this]⟩
  | .grp b n, h => by
      obtain ⟨gs, hg⟩ := visitParts_ok b (by simpa [partSymbols] using h)
      exact ⟨.group [.group gs 1] (groupMult n), by simp only [visitPart, hg]⟩
theorem visitParts_ok : ∀ (ps : List Part), (∀ e ∈ partsSymbols ps, Known e) → ∃ gs, visitParts ps = .ok gs
  | [], _ => ⟨[], rfl⟩
  | p :: ps, h => by
      obtain ⟨g, hg⟩ := visitPart_ok p (fun e he => h e (by simp [partsSymbols, he]))
      obtain ⟨gs, hgs⟩ := visitParts_ok ps (fun e he => h e (by simp [partsSymbols, he]))
      exact ⟨g :: gs, by simp only [visitParts, hg, hgs]⟩
end

mutual
theorem visitPart_known : ∀ (p : Part) (g : Grp), visitPart p = .ok g →
    (∀ q, q ∈ g.count.map (·.1) ↔ q ∈ partSymbols p) ∧ (g.count.map (·.1)).Nodup ∧ (∀ e ∈ partSymbols p, Known e) ∧
    (NoZero p → ∀ w, wsum w g.count = ((partAtoms p).map w).sum)
  | .elem s, g, h => by
      simp only [visitPart, visitElement] at h
      split at h
      · rename_i hk
        cases h
        refine ⟨by simp [Grp.count, partSymbols], by simp [Grp.count], ?_, fun _ w => by simp [Grp.count, partAtoms, wsum]⟩
        intro e he
        simp only [partSymbols, List.mem_singleton] at he
        exact he ▸ (known_iff s).1 hk
      · cases h
  | .elemN s d, g, h => by
      simp only [visitPart, visitElement] at h
      split at h
      · cases h
      · rename_i g0 h0
        cases h
        split at h0
        · rename_i hk
          cases h0
          refine ⟨?_, ?_, ?_, fun _ w => ?_⟩
          · intro q; simp only [Grp.count, keys_countAll]; simp [partSymbols, Grp.count]
          · simp only [Grp.count]; exact nodup_countAll _ _ _ (by simp)
          · intro e he
            simp only [partSymbols, List.mem_singleton] at he
            exact he ▸ (known_iff s).1 hk
          · simp only [Grp.count, wsum_countAll, partAtoms, List.map_replicate, List.sum_replicate, numVal_eq]
            simp [wsum, Grp.count]
        · cases h0
  | .grp b n, g, h => by
      simp only [visitPart] at h
      split at h
      · cases h
      · rename_i gs hgs
        cases h
        obtain ⟨a1, a3, a4⟩ := visitParts_known b gs hgs
        refine ⟨?_, ?_, by simpa [partSymbols] using a3, fun hz w => ?_⟩
        · intro q
          simp only [Grp.count, keys_countAll, List.mem_singleton, exists_eq_left, List.map_nil, List.not_mem_nil, or_false]
          rw [a1, partSymbols]
        · simp only [Grp.count]; exact nodup_countAll _ _ _ (by simp)
        · have hw := a4 hz.2 w
          have e0 : wsum w [] = 0 := rfl
          simp only [Grp.count, wsum_countAll, List.map_cons, List.map_nil, List.sum_cons, List.sum_nil, hw, partAtoms,
            groupMult_eq hz.1, e0]
          simp only [List.map_flatten, List.map_replicate, List.sum_flatten, List.sum_replicate]
          simp
theorem visitParts_known : ∀ (ps : List Part) (gs : List Grp), visitParts ps = .ok gs →
    (∀ q, (∃ g ∈ gs, q ∈ g.count.map (·.1)) ↔ q ∈ partsSymbols ps) ∧ (∀ e ∈ partsSymbols ps, Known e) ∧
    (NoZeros ps → ∀ w, (gs.map (fun g => wsum w g.count)).sum = ((partsAtoms ps).map w).sum)
  | [], gs, h => by
      cases h
      simp [partsSymbols, partsAtoms]
  | p :: ps, gs, h => by
      simp only [visitParts] at h
      split at h
      · cases h
      · rename_i g hg
        split at h
        · cases h
        · rename_i gs' hgs
          cases h
          obtain ⟨a1, _, a3, a4⟩ := visitPart_known p g hg
          obtain ⟨b1, b3, b4⟩ := visitParts_known ps gs' hgs
          refine ⟨?_, ?_, fun hz w => ?_⟩
          · intro q
            simp only [List.mem_cons, exists_eq_or_imp, partsSymbols, List.mem_append, a1, b1]
          · intro e he
            simp only [partsSymbols, List.mem_append] at he
            exact he.elim (a3 e) (b3 e)
          · simp only [List.map_cons, List.sum_cons, partsAtoms, List.map_append, List.sum_append, a4 hz.1 w, b4 hz.2 w]
end

theorem visitTree_spec (t : Tree) (c : Compound) (h : visitTree t = .ok c) :
    (∀ q, q ∈ c.count.map (·.1) ↔ q ∈ symbols t) ∧ (c.count.map (·.1)).Nodup ∧ (∀ e ∈ symbols t, Known e) ∧ c.phase = t.phase ∧
    (NoZeroGroup t → ∀ w, wsum w c.count = ((atoms t).map w).sum) := by
  have e0 : ∀ w, wsum w [] = 0 := fun _ => rfl
  unfold visitTree at h
  split at h
  · cases h
  · rename_i gs hgs
    obtain ⟨a1, a3, a4⟩ := visitParts_known _ _ hgs
    split at h
    · rename_i hd
      cases h
      refine ⟨?_, nodup_countAll _ _ _ (by simp), ?_, rfl, fun hz w => ?_⟩
      · intro q
        simp only [Compound.count, Grp.count, keys_countAll, List.mem_singleton, exists_eq_left, List.map_nil, List.not_mem_nil, or_false]
        rw [a1]; simp [symbols, hd]
      · intro e he; exact a3 e (by simpa [symbols, hd] using he)
      · simp only [Compound.count, Grp.count, wsum_countAll, e0, List.map_cons, List.map_nil, List.sum_cons, List.sum_nil, a4 hz.1 w, atoms, hd]
        simp
    · rename_i num b hd
      split at h
      · cases h
      · rename_i hs hhs
        obtain ⟨b1, b3, b4⟩ := visitParts_known _ _ hhs
        cases h
        refine ⟨?_, nodup_countAll _ _ _ (by simp), ?_, rfl, fun hz w => ?_⟩
        · intro q
          simp only [Compound.count, Grp.count, keys_countAll, List.mem_cons, exists_eq_or_imp, List.mem_singleton, exists_eq_left, List.map_nil, List.not_mem_nil,
            or_false, false_and, exists_false]
          rw [a1, b1]; simp [symbols, hd]
        · intro e he
          simp only [symbols, hd, List.mem_append] at he
          exact he.elim (a3 e) (b3 e)
        · obtain ⟨z1, z2⟩ := hz.2 num b hd
          simp only [Compound.count, Grp.count, wsum_countAll, e0, List.map_cons, List.map_nil, List.sum_cons, List.sum_nil, a4 hz.1 w, b4 z2 w, atoms, hd,
            groupMult_eq z1, List.map_append, List.sum_append, List.map_flatten, List.map_replicate, List.sum_flatten, List.sum_replicate]
          simp

theorem visitTree_ok (t : Tree) (h : ∀ e ∈ symbols t, Known e) : ∃ c, visitTree t = .ok c := by
  obtain ⟨gs, hgs⟩ := visitParts_ok t.group (fun e he => h e (by simp [symbols, he]))
  unfold visitTree
  rw [hgs]
  cases hd : t.dotted with
  | none => exact ⟨_, rfl⟩
  | some x =>
    obtain ⟨n, b⟩ := x
    obtain ⟨hs, hhs⟩ := visitParts_ok b (fun e he => h e (by simp [symbols, hd, he]))
    simp only [hhs]
    exact ⟨_, rfl⟩

theorem parseCompound_ok_iff (s : Str) : (∃ c, parseCompound s = .ok c) ↔ IsFormula s := by
  constructor
  · rintro ⟨c, h⟩
    unfold parseCompound at h
    split at h
    · cases h
    · rename_i t ht
      obtain ⟨a, b⟩ := parseTree_sound s t ht
      exact ⟨t, a, b, (visitTree_spec t c h).2.2.1⟩
  · rintro ⟨t, ht, rfl, hk⟩
    unfold parseCompound
    rw [parseTree_text t ht]
    exact visitTree_ok t hk

/-! ### Stripping -/

theorem strip_blank {a b x : Str} (ha : Blank a) (hb : Blank b) (h1 : Stop isSpace x) (h2 : Stop isSpace x.reverse) (hx : x ≠ []) :
    strip (a ++ x ++ b) = x := by
  unfold strip
  have s1 : Stop isSpace (x ++ b) := by
    cases x with
    | nil => exact absurd rfl hx
    | cons c x => exact stop_cons (h1 c x rfl)
  have e1 := (takeWhile_stop (p := isSpace) (x := a) (r := x ++ b) ha s1).2
  rw [List.append_assoc, e1, List.reverse_append]
  have e2 := (takeWhile_stop (p := isSpace) (x := b.reverse) (r := x.reverse) (fun c hc => hb c (by simpa using hc)) h2).2
  rw [e2, List.reverse_reverse]

end Auxi.Stoich
