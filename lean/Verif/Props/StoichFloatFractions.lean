import Verif.Props.StoichFloat

/-! # C137: fractions in floating point -/
namespace Auxi.StoichFloat.Props
open Auxi Auxi.Stoich Auxi.Stoich.Spec Auxi.Stoich.Props Auxi.Rounding Auxi.StoichFloat Auxi.StoichFloat.Spec

variable {rnd : ℚ → ℚ} {u η v t N : ℚ}

/-- Two dictionary comprehensions that agree on errors. -/
theorem mapDict_rel {f g : Str → ℚ → Res ℚ} {R : Str × ℚ → ℚ → ℚ → Prop} : ∀ {d : CDict},
    (∀ e ∈ d, (∃ x, f e.1 e.2 = .error x ∧ g e.1 e.2 = .error x) ∨ ∃ a b, f e.1 e.2 = .ok a ∧ g e.1 e.2 = .ok b ∧ R e a b) →
    (∃ x, mapDict f d = .error x ∧ mapDict g d = .error x) ∨
    ∃ L : List (Str × ℚ × ℚ), mapDict f d = .ok (L.map fun l => (l.1, l.2.1)) ∧ mapDict g d = .ok (L.map fun l => (l.1, l.2.2)) ∧
      List.Forall₂ (fun e l => l.1 = e.1 ∧ R e l.2.1 l.2.2) d L
  | [], _ => .inr ⟨[], rfl, rfl, .nil⟩
  | (k, x) :: d, h => by
    unfold mapDict
    rcases h (k, x) List.mem_cons_self with ⟨z, h1, h2⟩ | ⟨a, b, h1, h2, h3⟩
    · exact .inl ⟨z, by rw [h1], by rw [h2]⟩
    · rw [h1, h2]
      dsimp only
      rcases mapDict_rel (d := d) (fun e he => h e (List.mem_cons_of_mem _ he)) with ⟨z, i1, i2⟩ | ⟨L, i1, i2, i3⟩
      · exact .inl ⟨z, by rw [i1], by rw [i2]⟩
      · exact .inr ⟨(k, a, b) :: L, by rw [i1]; rfl, by rw [i2]; rfl, .cons ⟨rfl, h3⟩ i3⟩

theorem fractionsOf_eq {y : CDict} (h : sumF rnd (y.map (·.2)) ≠ 0) : fractionsOf rnd y = .ok (y.map fun e => (e.1, rnd (e.2 / sumF rnd (y.map (·.2))))) := by
  unfold fractionsOf
  exact mapDict_of_forall (g := fun _ x => rnd (x / sumF rnd (y.map (·.2)))) (fun e _ => by rw [if_neg h])

theorem fractionsOf_eq' {x : CDict} (h : (x.map (·.2)).sum ≠ 0) : Stoich.fractionsOf x = .ok (x.map fun e => (e.1, e.2 / (x.map (·.2)).sum)) := by
  unfold Stoich.fractionsOf
  exact mapDict_of_forall (g := fun _ y => y / (x.map (·.2)).sum) (fun e _ => by rw [if_neg h])

/-- The fractions of calculated numbers. -/
theorem fractions_within (A : Arith rnd u η v t N) {k : ℕ} {L : List (Str × ℚ × ℚ)} (hw : ∀ l ∈ L, Within v k l.2.1 l.2.2) (hf : ∀ l ∈ L, rnd l.2.2 = l.2.2)
    (ht : ∀ l ∈ L, l.2.2 = 0 ∨ t * sumF rnd (L.map (·.2.2)) ≤ l.2.2) :
    (∃ x, Stoich.fractionsOf (L.map fun l => (l.1, l.2.1)) = .error x ∧ fractionsOf rnd (L.map fun l => (l.1, l.2.2)) = .error x) ∨
    ∃ f g, Stoich.fractionsOf (L.map fun l => (l.1, l.2.1)) = .ok f ∧ fractionsOf rnd (L.map fun l => (l.1, l.2.2)) = .ok g ∧
      List.Forall₂ (fun a b => b.1 = a.1 ∧ Within v (2 * k + L.length + 1) a.2 b.2 ∧ b.2 ≤ 1) f g ∧ (L ≠ [] → Within v (L.length + 1) 1 (g.map (·.2)).sum) := by
  have e1 : (L.map fun l => (l.1, l.2.1)).map (·.2) = L.map (·.2.1) := by rw [List.map_map]; rfl
  have e2 : (L.map fun l => (l.1, l.2.2)).map (·.2) = L.map (·.2.2) := by rw [List.map_map]; rfl
  have S := sumF_within A (l := L.map (·.2.2)) (by
    intro x hx
    obtain ⟨l, hl, rfl⟩ := List.mem_map.1 hx
    exact ⟨hf l hl, (hw l hl).nonneg A⟩)
  rw [List.length_map] at S
  have W : Within v k (L.map (·.2.1)).sum (L.map (·.2.2)).sum := by
    refine within_sum A ?_
    rw [List.forall₂_map_left_iff, List.forall₂_map_right_iff]
    exact List.forall₂_same.2 hw
  have T : Within v (k + L.length) (L.map (·.2.1)).sum (sumF rnd (L.map (·.2.2))) := W.trans A S.1
  have q := pow_pos' A (k + L.length)
  by_cases h0 : (L.map (·.2.1)).sum = 0
  · have h1 : sumF rnd (L.map (·.2.2)) = 0 := by
      have a := T.2.2; rw [h0] at a
      have b := T.nonneg A
      nlinarith
    cases L with
    | nil => exact .inr ⟨[], [], rfl, rfl, .nil, fun h => absurd rfl h⟩
    | cons l L =>
      refine .inl ⟨.zeroDivisionError, ?_, ?_⟩
      · unfold Stoich.fractionsOf; rw [e1, h0, List.map_cons, mapDict, if_pos rfl]
      · unfold fractionsOf; rw [e2, h1, List.map_cons, mapDict, if_pos rfl]
  · have h1 : sumF rnd (L.map (·.2.2)) ≠ 0 := by
      intro hc
      have a := T.2.1; rw [hc] at a
      have b := T.1
      have : 0 < (L.map (·.2.1)).sum := lt_of_le_of_ne b (Ne.symm h0)
      nlinarith
    have h2 : 0 < sumF rnd (L.map (·.2.2)) := lt_of_le_of_ne (T.nonneg A) (Ne.symm h1)
    have rel : ∀ l ∈ L, Within v 1 (l.2.2 / sumF rnd (L.map (·.2.2))) (rnd (l.2.2 / sumF rnd (L.map (·.2.2)))) := by
      intro l hl
      refine within_round A ((ht l hl).imp (fun h => by rw [h, zero_div]) (fun h => ?_))
      rwa [le_div_iff₀ h2]
    refine .inr ⟨_, _, fractionsOf_eq' (by rw [e1]; exact h0), fractionsOf_eq (by rw [e2]; exact h1), ?_, fun _ => ?_⟩
    · rw [e1, e2, List.forall₂_map_left_iff, List.forall₂_map_right_iff, List.forall₂_map_left_iff, List.forall₂_map_right_iff]
      refine List.forall₂_same.2 (fun l hl => ⟨rfl, ?_, ?_⟩)
      · have := ((hw l hl).div A T h0).trans A (rel l hl)
        exact this.mono A (by omega)
      · refine A.ieee.le_float A.ieee.one ?_
        rw [div_le_one h2]
        exact S.2.2 _ (List.mem_map_of_mem hl)
    · rw [e2, List.map_map, List.map_map]
      have s1 : Within v 1 (L.map (fun l => l.2.2 / sumF rnd (L.map (·.2.2)))).sum (L.map (fun l => rnd (l.2.2 / sumF rnd (L.map (·.2.2))))).sum := by
        refine within_sum A ?_
        rw [List.forall₂_map_left_iff, List.forall₂_map_right_iff]
        exact List.forall₂_same.2 rel
      have s2 : (L.map (fun l => l.2.2 / sumF rnd (L.map (·.2.2)))).sum = (L.map (·.2.2)).sum / sumF rnd (L.map (·.2.2)) := by
        generalize sumF rnd (L.map (·.2.2)) = z
        clear * -
        induction L with
        | nil => simp
        | cons l L ih => simp only [List.map_cons, List.sum_cons, ih]; ring
      rw [s2] at s1
      have s3 := S.1.div A (Within.self (v := v) h2.le) (by
        intro hc
        have := S.1.2.2
        rw [hc] at this
        have := pow_pos' A L.length
        nlinarith)
      rw [div_self h1] at s3
      exact (s3.symm A).trans A s1

/-! ## Fractions of a mixture -/

theorem forall₂_mem {α β : Type} {R : α → β → Prop} {l : List α} {m : List β} (h : List.Forall₂ R l m) : ∀ y ∈ m, ∃ x ∈ l, R x y := by
  induction h with
  | nil => intro y hy; cases hy
  | cons h _ ih =>
    intro y hy
    rcases List.mem_cons.1 hy with rfl | hy
    · exact ⟨_, List.mem_cons_self, h⟩
    · obtain ⟨x, hx, hr⟩ := ih y hy
      exact ⟨x, List.mem_cons_of_mem _ hx, hr⟩

theorem forall₂_sum_le {R : Str × ℚ → Str × ℚ × ℚ → Prop} {C : ℚ} {d : CDict} {L : List (Str × ℚ × ℚ)} (h : List.Forall₂ R d L) (hR : ∀ e l, R e l → l.2.2 ≤ e.2 * C) :
    (L.map (·.2.2)).sum ≤ (d.map (·.2)).sum * C := by
  induction h with
  | nil => simp
  | cons h _ ih =>
    rw [List.map_cons, List.map_cons, List.sum_cons, List.sum_cons, add_mul]
    exact add_le_add (hR _ _ h) ih

theorem sumF_le (A : Arith rnd u η v t N) {l : List ℚ} (h : ∀ x ∈ l, rnd x = x ∧ 0 ≤ x) (hl : l.length * v ≤ 1 / 2) : sumF rnd l ≤ 2 * l.sum := by
  have S := (sumF_within A h).1
  have h1 := ChemFloat.Proofs.one_sub_pow A.v0 (by have := A.v1; linarith) l.length
  have h2 := S.2.2
  have h3 := S.nonneg A
  nlinarith

/-- **C137 (amount fractions).** Mole fractions are calculated exactly when they exist; each is right within a few roundings and between 0 and 1, and together they are 1 within one
rounding for each compound and one more. -/
theorem C137_amount_fractions (A : Arith rnd u η v t N) (d : CDict) (hd : GivenAll rnd t N d) (hS : ∀ e ∈ d, Small N e.1) (K : ℕ) (hK : ∀ e ∈ d, kinds e.1 ≤ K)
    (hl : d.length * v ≤ 1 / 2) :
    (∀ e, Stoich.amountFractions d = .error e → amountFractions rnd d = .error e) ∧
      ∀ f, Stoich.amountFractions d = .ok f → ∃ g, amountFractions rnd d = .ok g ∧ List.Forall₂ (fun a b => b.1 = a.1 ∧ Within v (2 * (K + 3) + d.length + 1) a.2 b.2 ∧ b.2 ≤ 1) f g ∧
        (d ≠ [] → Within v (d.length + 1) 1 (g.map (·.2)).sum) := by
  have N0 := A.N0; have t0 := A.t0; have N1 := A.N1
  have d0 : 0 ≤ (d.map (·.2)).sum := List.sum_nonneg (fun x hx => by obtain ⟨e, he, rfl⟩ := List.mem_map.1 hx; exact given_nonneg A (hd e he).1)
  unfold Stoich.amountFractions amountFractions Stoich.amounts amounts
  rcases mapDict_rel (R := fun e a b => rnd b = b ∧ Within v (K + 3) a b ∧ b ≤ e.2 ∧ (e.2 = 0 → b = 0) ∧ e.2 ≤ b * (2 ^ 17 * N)) (f := Stoich.amount) (g := amount rnd) (d := d)
    (fun e he => (amount_cases A e.1 e.2 (hS e he) (hd e he).1).imp id (fun ⟨a, b, h1, h2, h3, h4, h5⟩ => ⟨a, b, h1, h2, h3, h4.mono A (by have := hK e he; omega), h5⟩))
    with ⟨x, h1, h2⟩ | ⟨L, h1, h2, h3⟩
  · rw [h1, h2]
    exact ⟨fun e h => by cases h; rfl, fun f h => by (cases h)⟩
  · rw [h1, h2]
    dsimp only
    have mem := forall₂_mem h3
    have len := h3.length_eq
    have s := sumF_le A (l := L.map (·.2.2)) (by
      intro x hx
      obtain ⟨l, hl, rfl⟩ := List.mem_map.1 hx
      obtain ⟨e, -, -, r1, r2, -⟩ := mem l hl
      exact ⟨r1, r2.nonneg A⟩) (by rw [List.length_map, ← len]; exact hl)
    have s' := forall₂_sum_le h3 (C := 1) (fun e l h => by rw [mul_one]; exact h.2.2.2.1)
    rw [mul_one] at s'
    have key := fractions_within A (k := K + 3) (L := L) (fun l hl => by obtain ⟨e, -, -, -, r2, -⟩ := mem l hl; exact r2)
      (fun l hl => by obtain ⟨e, -, -, r1, -⟩ := mem l hl; exact r1) (fun l hl => by
        obtain ⟨e, he, -, -, -, r3, r4, r5⟩ := mem l hl
        rcases (hd e he).2 with h | h
        · exact .inl (r4 h)
        · right
          have a1 : t * (2 ^ 19 * N) * (d.map (·.2)).sum ≤ l.2.2 * (2 ^ 17 * N) := h.trans r5
          have a2 : (4 * (t * (d.map (·.2)).sum)) * (2 ^ 17 * N) ≤ l.2.2 * (2 ^ 17 * N) := by
            refine le_trans (le_of_eq ?_) a1; ring
          have a3 := le_of_mul_le_mul_right a2 (by positivity)
          have a4 : t * sumF rnd (L.map (·.2.2)) ≤ t * (2 * (d.map (·.2)).sum) := mul_le_mul_of_nonneg_left (by linarith) t0.le
          have a5 := mul_nonneg t0.le d0
          linarith)
    have ne : d ≠ [] → L ≠ [] := by rintro h rfl; exact h (by simpa using len)
    rw [len]
    rcases key with ⟨x, k1, k2⟩ | ⟨f, g, k1, k2, k3, k4⟩
    · rw [k1, k2]; exact ⟨fun e h => by cases h; rfl, fun f h => by (cases h)⟩
    · rw [k1, k2]; exact ⟨fun e h => by (cases h), fun f' h => by cases h; exact ⟨g, rfl, k3, fun h => k4 (ne h)⟩⟩

/-- **C137 (mass fractions).** The same for mass fractions calculated from amounts. -/
theorem C137_mass_fractions (A : Arith rnd u η v t N) (d : CDict) (hd : GivenAll rnd t N d) (hS : ∀ e ∈ d, Small N e.1) (K : ℕ) (hK : ∀ e ∈ d, kinds e.1 ≤ K)
    (hl : d.length * v ≤ 1 / 2) :
    (∀ e, Stoich.massFractions d = .error e → massFractions rnd d = .error e) ∧
      ∀ f, Stoich.massFractions d = .ok f → ∃ g, massFractions rnd d = .ok g ∧ List.Forall₂ (fun a b => b.1 = a.1 ∧ Within v (2 * (K + 3) + d.length + 1) a.2 b.2 ∧ b.2 ≤ 1) f g ∧
        (d ≠ [] → Within v (d.length + 1) 1 (g.map (·.2)).sum) := by
  have N0 := A.N0; have t0 := A.t0; have N1 := A.N1
  have d0 : 0 ≤ (d.map (·.2)).sum := List.sum_nonneg (fun x hx => by obtain ⟨e, he, rfl⟩ := List.mem_map.1 hx; exact given_nonneg A (hd e he).1)
  unfold Stoich.massFractions massFractions Stoich.masses masses
  rcases mapDict_rel (R := fun e a b => rnd b = b ∧ Within v (K + 3) a b ∧ b ≤ e.2 * (2 ^ 17 * N) ∧ (e.2 = 0 → b = 0) ∧ (b = 0 ∨ e.2 ≤ b)) (f := Stoich.mass) (g := mass rnd) (d := d)
    (fun e he => (mass_cases A e.1 e.2 (hS e he) (hd e he).1).imp id (fun ⟨a, b, h1, h2, h3, h4, h5⟩ => ⟨a, b, h1, h2, h3, h4.mono A (by have := hK e he; omega), h5⟩))
    with ⟨x, h1, h2⟩ | ⟨L, h1, h2, h3⟩
  · rw [h1, h2]
    exact ⟨fun e h => by cases h; rfl, fun f h => by (cases h)⟩
  · rw [h1, h2]
    dsimp only
    have mem := forall₂_mem h3
    have len := h3.length_eq
    have s := sumF_le A (l := L.map (·.2.2)) (by
      intro x hx
      obtain ⟨l, hl, rfl⟩ := List.mem_map.1 hx
      obtain ⟨e, -, -, r1, r2, -⟩ := mem l hl
      exact ⟨r1, r2.nonneg A⟩) (by rw [List.length_map, ← len]; exact hl)
    have s' := forall₂_sum_le h3 (C := 2 ^ 17 * N) (fun e l h => h.2.2.2.1)
    have key := fractions_within A (k := K + 3) (L := L) (fun l hl => by obtain ⟨e, -, -, -, r2, -⟩ := mem l hl; exact r2)
      (fun l hl => by obtain ⟨e, -, -, r1, -⟩ := mem l hl; exact r1) (fun l hl => by
        obtain ⟨e, he, -, -, -, r3, r4, r5⟩ := mem l hl
        rcases (hd e he).2 with h | h
        · exact .inl (r4 h)
        · refine r5.imp id (fun r5 => ?_)
          have a4 : t * sumF rnd (L.map (·.2.2)) ≤ t * (2 * ((d.map (·.2)).sum * (2 ^ 17 * N))) := mul_le_mul_of_nonneg_left (by linarith) t0.le
          have a5 : 0 ≤ t * ((d.map (·.2)).sum * N) := mul_nonneg t0.le (mul_nonneg d0 N0.le)
          have a6 : t * (2 ^ 19 * N) * (d.map (·.2)).sum = 2 ^ 19 * (t * ((d.map (·.2)).sum * N)) := by ring
          have a7 : t * (2 * ((d.map (·.2)).sum * (2 ^ 17 * N))) = 2 ^ 18 * (t * ((d.map (·.2)).sum * N)) := by ring
          linarith)
    have ne : d ≠ [] → L ≠ [] := by rintro h rfl; exact h (by simpa using len)
    rw [len]
    rcases key with ⟨x, k1, k2⟩ | ⟨f, g, k1, k2, k3, k4⟩
    · rw [k1, k2]; exact ⟨fun e h => by cases h; rfl, fun f h => by (cases h)⟩
    · rw [k1, k2]; exact ⟨fun e h => by (cases h), fun f' h => by cases h; exact ⟨g, rfl, k3, fun h => k4 (ne h)⟩⟩

end Auxi.StoichFloat.Props
