import Verif.Props.StoichFloatFractions

/-! # C137: elements in floating point -/
namespace Auxi.StoichFloat.Props
open Auxi Auxi.Stoich Auxi.Stoich.Spec Auxi.Stoich.Props Auxi.Rounding Auxi.StoichFloat Auxi.StoichFloat.Spec

variable {rnd : ℚ → ℚ} {u η v t N : ℚ}

/-- The symbol of an element is the formula of one atom. -/
theorem parse_symbol {e : Str} (h : Known e) : ∃ c, parseCompound (strip e) = .ok c ∧ c.count = [(e, 1)] ∧ e ≠ [] := by
  have hok := plain_ok (g := [.elem e]) (by simp) ⟨known_symbol h, trivial⟩
  have e1 : text (plain [.elem e]) = e := by rw [text_plain]; simp [partsText, partText]
  have h1 := text_ne_nil _ hok
  have h2 := strip_text' _ hok
  have h3 := parse_text _ hok
  rw [e1] at h1 h2 h3
  refine ⟨⟨[.group [.elem e] 1], none⟩, ?_, ?_, h1⟩
  · rw [h2, h3]
    simp [visitTree, plain, visitParts, visitPart, visitElement, (known_iff e).2 h]
  · simp [Compound.count, Stoich.countAll, Stoich.bumpAll, Stoich.bump, Grp.count]

theorem symbol_mass (A : Arith rnd u η v t N) {e : Str} (h : Known e) : molarMass rnd e = .ok (rnd (massOf e)) := by
  obtain ⟨c, h1, h2, h3⟩ := parse_symbol h
  have hS : Small N e := by
    intro k x hx
    unfold Stoich.coefficient at hx
    rw [h1] at hx
    simp only [Except.map, Except.ok.injEq, h2, Counts.get, List.lookup_cons, List.lookup_nil] at hx
    have := A.N1
    cases hk : (k == e) <;> rw [hk] at hx <;> simp at hx <;> rw [← hx] <;> linarith
  unfold molarMass
  rw [if_neg h3, h1]
  simp only [Except.map, compoundMass_eq A h1 hS, h2, List.map_cons, List.map_nil, sumF, List.foldl_cons, List.foldl_nil, term, mul_one, zero_add, A.ieee.idem]

/-- The fraction of an element of a formula. -/
theorem fraction_eq (A : Arith rnd u η v t N) {s : Str} {c : Compound} (hp : parseCompound (strip s) = .ok c) (hs : s ≠ []) (hS : Small N s) {e : Str} {k : ℚ} (he : (e, k) ∈ c.count) :
    elementMassFraction rnd s e = .ok (rnd (term rnd (e, k) / compoundMass rnd c)) ∧ Stoich.elementMassFraction s e = .ok (massOf e * k / c.molarMass) ∧
      (k = 0 ∨ (c.molarMass ≠ 0 ∧ 1 ≤ compoundMass rnd c ∧ 1 ≤ term rnd (e, k))) := by
  have hk := (parsed hp).2 _ he
  have pw : ∃ n : ℕ, (e, k).2 = n := whole_countAll 1 c.groups (acc := []) (fun e he => by (cases he)) _ he
  have ts := term_spec A hk pw
  obtain ⟨f1, f2, f3, f4, f5, f6, f7⟩ := mass_facts A hp hS
  have co : Stoich.coefficient s e = .ok k := by
    unfold Stoich.coefficient
    rw [hp]
    simp only [Except.map, Counts.get, lookup_mem (parsed hp).1 he, Option.getD_some]
  have mF : molarMass rnd s = .ok (compoundMass rnd c) := by unfold molarMass; rw [if_neg hs, hp]; rfl
  have mE : Stoich.molarMass s = .ok c.molarMass := by unfold Stoich.molarMass; rw [if_neg hs, hp]; rfl
  unfold elementMassFraction Stoich.elementMassFraction
  rw [C137_coefficient A s e hS, co]
  dsimp only
  by_cases h0 : k = 0
  · subst h0
    rw [if_pos rfl, if_pos rfl, ts.2.2.1 rfl, zero_div, A.ieee.zero, mul_zero, zero_div]
    exact ⟨rfl, rfl, .inl rfl⟩
  · have t1 := ts.2.2.2 h0
    have c1 : 1 ≤ compoundMass rnd c := t1.trans (f6 _ he)
    have c0 : compoundMass rnd c ≠ 0 := by intro h; rw [h] at c1; linarith
    have m0 : c.molarMass ≠ 0 := fun h => c0 (f4.1 h)
    rw [if_neg h0, if_neg h0, mF, mE, symbol_mass A hk, molarMass_symbol hk]
    dsimp only
    rw [if_neg c0, if_neg m0]
    refine ⟨?_, ?_, .inr ⟨m0, c1, t1⟩⟩
    · unfold term; rw [mul_comm k]
    · rw [mul_comm k]

theorem fraction_absent (A : Arith rnd u η v t N) {s : Str} {c : Compound} (hp : parseCompound (strip s) = .ok c) (hS : Small N s) {e : Str} (he : e ∉ c.count.map (·.1)) :
    elementMassFraction rnd s e = .ok 0 ∧ Stoich.elementMassFraction s e = .ok 0 := by
  have co : Stoich.coefficient s e = .ok 0 := by
    unfold Stoich.coefficient
    rw [hp]
    simp only [Except.map, Counts.get, lookup_none he, Option.getD_none]
  unfold elementMassFraction Stoich.elementMassFraction
  rw [C137_coefficient A s e hS, co]
  simp

theorem strip_nil {s : Str} {c : Compound} (hp : parseCompound (strip s) = .ok c) : s ≠ [] := by
  rintro rfl
  obtain ⟨t, h1, h2, -⟩ := (parseCompound_ok_iff _).1 ⟨c, hp⟩
  exact text_ne_nil t h1 h2

/-- The fraction of an element, with what is needed of its size. -/
theorem fraction_cases (A : Arith rnd u η v t N) (s e : Str) (hS : Small N s) :
    (∃ x, Stoich.elementMassFraction s e = .error x ∧ elementMassFraction rnd s e = .error x) ∨
    ∃ f g, Stoich.elementMassFraction s e = .ok f ∧ elementMassFraction rnd s e = .ok g ∧ Within v (kinds s + 5) f g ∧ g ≤ 1 ∧ rnd g = g ∧ (f = 0 ↔ g = 0) ∧
      (g = 0 ∨ 1 - v ≤ g * (2 ^ 16 * N)) := by
  cases hp : parseCompound (strip s) with
  | error x =>
    refine .inl ⟨x, ?_, ?_⟩
    · unfold Stoich.elementMassFraction Stoich.coefficient; rw [hp]; rfl
    · unfold elementMassFraction coefficient; rw [hp]; rfl
  | ok c =>
    right
    by_cases hin : e ∈ c.count.map (·.1)
    · obtain ⟨⟨e', k⟩, he, rfl⟩ := List.mem_map.1 hin
      obtain ⟨f1, f2, f3, f4, f5, f6, f7⟩ := mass_facts A hp hS
      obtain ⟨g1, g2, g3⟩ := fraction_eq A hp (strip_nil hp) hS he
      have hk := (parsed hp).2 _ he
      have pw : ∃ n : ℕ, (e', k).2 = n := whole_countAll 1 c.groups (acc := []) (fun e he => by (cases he)) _ he
      have ts := term_spec A hk pw
      refine ⟨_, _, g2, g1, ?_⟩
      have N0 := A.N0
      rcases g3 with rfl | ⟨m0, c1, t1⟩
      · rw [ts.2.2.1 rfl, zero_div, A.ieee.zero, mul_zero, zero_div]
        exact ⟨(Within.self le_rfl).mono A (Nat.zero_le _), zero_le_one, A.ieee.zero, Iff.rfl, .inl rfl⟩
      · have c0 : 0 < compoundMass rnd c := by linarith
        have ge : 1 ≤ term rnd (e', k) / compoundMass rnd c * (2 ^ 16 * N) := by
          rw [div_mul_eq_mul_div, le_div_iff₀ c0]
          nlinarith
        have q : t ≤ term rnd (e', k) / compoundMass rnd c := by
          have a := A.room
          have P : (0 : ℚ) < 2 ^ 16 * N := by positivity
          refine le_of_mul_le_mul_right ?_ P
          have : t * (2 ^ 17 * N) = 2 * (t * (2 ^ 16 * N)) := by ring
          have := mul_pos A.t0 P
          linarith
        have w := within_round A (.inr q)
        have W := ((ts.1.div A f2 m0).trans A w)
        refine ⟨?_, ?_, A.ieee.idem _, ?_, .inr ?_⟩
        · rw [← (kinds_eq hp).2] at W
          exact W.mono A (by omega)
        · exact A.ieee.le_float A.ieee.one (by rw [div_le_one c0]; exact f6 _ he)
        · have a1 : massOf e' * k / c.molarMass ≠ 0 := by
            refine div_ne_zero (mul_ne_zero (massOf_pos hk).ne' ?_) m0
            rintro rfl
            rw [ts.2.2.1 rfl] at t1
            linarith
          have a2 : t ≤ rnd (term rnd (e', k) / compoundMass rnd c) := A.ieee.float_le A.tf q
          have := A.t0
          exact ⟨fun h => absurd h a1, fun h => by rw [h] at a2; linarith⟩
        · have a := w.2.1
          rw [pow_one] at a
          have b : (1 : ℚ) * (1 - v) ≤ (term rnd (e', k) / compoundMass rnd c * (2 ^ 16 * N)) * (1 - v) := mul_le_mul_of_nonneg_right ge A.q0.le
          have d : term rnd (e', k) / compoundMass rnd c * (1 - v) * (2 ^ 16 * N) ≤ rnd (term rnd (e', k) / compoundMass rnd c) * (2 ^ 16 * N) :=
            mul_le_mul_of_nonneg_right a (by positivity)
          linarith
    · obtain ⟨g1, g2⟩ := fraction_absent A hp hS hin
      exact ⟨0, 0, g2, g1, (Within.self le_rfl).mono A (Nat.zero_le _), zero_le_one, A.ieee.zero, Iff.rfl, .inl rfl⟩

/-- **C137 (element fraction).** The mass fraction of an element in a compound is calculated exactly when it exists, is right within a few roundings, is between 0 and 1, and is 0 exactly when the
element is absent. -/
theorem C137_element_fraction (A : Arith rnd u η v t N) (s e : Str) (hS : Small N s) :
    (∀ x, Stoich.elementMassFraction s e = .error x → elementMassFraction rnd s e = .error x) ∧
      ∀ f, Stoich.elementMassFraction s e = .ok f → ∃ g, elementMassFraction rnd s e = .ok g ∧ Within v (kinds s + 5) f g ∧ g ≤ 1 ∧ (f = 0 ↔ g = 0) := by
  rcases fraction_cases A s e hS with ⟨x, h1, h2⟩ | ⟨f, g, h1, h2, h3, h4, -, h5, -⟩
  · exact ⟨fun x' h => by rw [h1] at h; cases h; exact h2, fun f h => by (rw [h1] at h; cases h)⟩
  · exact ⟨fun x' h => by (rw [h1] at h; cases h), fun f' h => by rw [h1] at h; cases h; exact ⟨g, h2, h3, h4, h5⟩⟩

/-- **C137 (sum of element fractions).** The mass fractions of the elements of a compound are together 1 within one rounding for each element and one more. -/
theorem C137_element_fractions_sum (A : Arith rnd u η v t N) (s : Str) (E : List Str) (M : ℚ) (hS : Small N s) (hE : elements [strip s] = .ok E) (hM : Stoich.molarMass s = .ok M) (h0 : M ≠ 0) :
    ∃ fs, elementMassFractions rnd s E = .ok fs ∧ fs.length = E.length ∧ Within v (E.length + 1) 1 fs.sum ∧ ∀ g ∈ fs, 0 ≤ g ∧ g ≤ 1 := by
  cases hp : parseCompound (strip s) with
  | error x => unfold elements at hE; rw [hp] at hE; cases hE
  | ok c =>
    have hs := strip_nil hp
    rw [(kinds_eq hp).1] at hE
    cases hE
    have hM' : c.molarMass = M := by
      unfold Stoich.molarMass at hM
      rw [if_neg hs, hp] at hM
      exact Except.ok.inj hM
    obtain ⟨f1, f2, f3, f4, f5, f6, f7⟩ := mass_facts A hp hS
    have m0 : c.molarMass ≠ 0 := hM' ▸ h0
    have c0 : compoundMass rnd c ≠ 0 := fun h => m0 (f4.2 h)
    have cpos : 0 < compoundMass rnd c := lt_of_lt_of_le one_pos (f5 c0)
    have fe : ∀ l : List (Str × ℚ), (∀ e ∈ l, e ∈ c.count) → elementMassFractions rnd s (l.map (·.1)) = .ok (l.map fun e => rnd (term rnd e / compoundMass rnd c)) := by
      intro l
      induction l with
      | nil => intro _; rfl
      | cons a l ih =>
        intro hl
        rw [List.map_cons, elementMassFractions, (fraction_eq A hp hs hS (hl a List.mem_cons_self)).1, ih (fun e he => hl e (List.mem_cons_of_mem _ he))]
        rfl
    have rel : ∀ e ∈ c.count, Within v 1 (term rnd e / compoundMass rnd c) (rnd (term rnd e / compoundMass rnd c)) ∧ rnd (term rnd e / compoundMass rnd c) ≤ 1 := by
      intro e he
      have pw : ∃ n : ℕ, e.2 = n := whole_countAll 1 c.groups (acc := []) (fun e he => by (cases he)) _ he
      have ts := term_spec A ((parsed hp).2 _ he) pw
      refine ⟨within_round A ?_, A.ieee.le_float A.ieee.one (by rw [div_le_one cpos]; exact f6 _ he)⟩
      by_cases h0 : e.2 = 0
      · left; rw [ts.2.2.1 h0, zero_div]
      · right
        have t1 := ts.2.2.2 h0
        rw [le_div_iff₀ cpos]
        have a := A.room
        have N0 := A.N0
        have : t * compoundMass rnd c ≤ t * (2 ^ 16 * N) := mul_le_mul_of_nonneg_left f3 A.t0.le
        have : t * (2 ^ 17 * N) = 2 * (t * (2 ^ 16 * N)) := by ring
        have : 0 ≤ t * (2 ^ 16 * N) := mul_nonneg A.t0.le (by positivity)
        linarith
    refine ⟨_, fe c.count (fun e he => he), by simp, ?_, ?_⟩
    · rw [List.length_map]
      have s1 : Within v 1 (c.count.map (fun e => term rnd e / compoundMass rnd c)).sum (c.count.map fun e => rnd (term rnd e / compoundMass rnd c)).sum := by
        refine within_sum A ?_
        rw [List.forall₂_map_left_iff, List.forall₂_map_right_iff]
        exact List.forall₂_same.2 (fun e he => (rel e he).1)
      have s2 : (c.count.map (fun e => term rnd e / compoundMass rnd c)).sum = (c.count.map (term rnd)).sum / compoundMass rnd c := by
        generalize compoundMass rnd c = z
        generalize c.count = l
        clear * -
        induction l with
        | nil => simp
        | cons a l ih => simp only [List.map_cons, List.sum_cons, ih]; ring
      rw [s2] at s1
      have s3 := f7.div A (Within.self (v := v) cpos.le) (by
        intro hc
        have := f7.2.2
        rw [hc] at this
        have := pow_pos' A c.count.length
        nlinarith)
      rw [div_self c0] at s3
      exact (s3.symm A).trans A s1
    · intro g hg
      obtain ⟨e, he, rfl⟩ := List.mem_map.1 hg
      exact ⟨(rel e he).1.nonneg A, (rel e he).2⟩

/-! ## Conversion of compounds -/

/-- **C137 (conversion).** Converting a mass of one compound to another through an element gives, exactly when it succeeds, the right mass within a few roundings. -/
theorem C137_convert (A : Arith rnd u η v t N) (m : ℚ) (src tgt e : Str) (hm : Given rnd t N m) (h1 : Small N src) (h2 : Small N tgt) :
    (∀ x, Stoich.convertCompound m src tgt e = .error x → convertCompound rnd m src tgt e = .error x) ∧
      ∀ x, Stoich.convertCompound m src tgt e = .ok x → ∃ y, convertCompound rnd m src tgt e = .ok y ∧ Within v (kinds src + kinds tgt + 12) x y := by
  have N0 := A.N0; have t0 := A.t0; have v1 := A.v1; have v0 := A.v0; have N1 := A.N1
  have m0 := given_nonneg A hm
  unfold Stoich.convertCompound convertCompound
  rcases fraction_cases A tgt e h2 with ⟨x, a1, a2⟩ | ⟨f, g, a1, a2, a3, a4, a5, a6, a7⟩
  · rw [a1, a2]
    exact ⟨fun x' h => by cases h; rfl, fun x' h => by (cases h)⟩
  · rw [a1, a2]
    dsimp only
    by_cases f0 : f = 0
    · rw [if_pos f0, if_pos (a6.1 f0)]
      exact ⟨fun x' h => by (cases h), fun x' h => by cases h; exact ⟨0, rfl, (Within.self le_rfl).mono A (Nat.zero_le _)⟩⟩
    · have g0 : g ≠ 0 := fun h => f0 (a6.2 h)
      have gpos : 0 < g := lt_of_le_of_ne (a3.nonneg A) (Ne.symm g0)
      rw [if_neg f0, if_neg g0]
      rcases fraction_cases A src e h1 with ⟨x, b1, b2⟩ | ⟨f', g', b1, b2, b3, b4, b5, b6, b7⟩
      · rw [b1, b2]
        exact ⟨fun x' h => by cases h; rfl, fun x' h => by (cases h)⟩
      · rw [b1, b2]
        refine ⟨fun x' h => by (cases h), fun x' h => ?_⟩
        cases h
        refine ⟨_, rfl, ?_⟩
        have q : m * g' = 0 ∨ t ≤ m * g' := by
          rcases hm.2 with h | h
          · left; rw [h, zero_mul]
          · refine b7.imp (fun h => by rw [h, mul_zero]) (fun b7 => ?_)
            have b0 := b3.nonneg A
            have c1 : t * (2 ^ 17 * N) * g' ≤ m * g' := mul_le_mul_of_nonneg_right h b0
            have c2 : t * (1 - v) ≤ t * (g' * (2 ^ 16 * N)) := mul_le_mul_of_nonneg_left b7 t0.le
            have c3 : t * (2 ^ 17 * N) * g' = 2 * (t * (g' * (2 ^ 16 * N))) := by ring
            nlinarith
        have w1 := within_round A q
        have w2 := ((Within.self (v := v) m0).mul A b3).trans A w1
        have q2 : rnd (m * g') / g = 0 ∨ t ≤ rnd (m * g') / g := by
          rcases q with q | q
          · left; rw [q, A.ieee.zero, zero_div]
          · right
            have : t ≤ rnd (m * g') := A.ieee.float_le A.tf q
            rw [le_div_iff₀ gpos]
            nlinarith
        have w3 := (w2.div A a3 f0).trans A (within_round A q2)
        exact w3.mono A (by omega)

/-- **C137 (conversion there and back).** Converting a mass to another compound and back gives the mass within four roundings, if both compounds contain the element. -/
theorem C137_convert_back (A : Arith rnd u η v t N) (m a b : ℚ) (src tgt e : Str) (hm : Given rnd t N m) (h1 : Small N src) (h2 : Small N tgt)
    (hs : Stoich.elementMassFraction src e ≠ .ok 0) (ht : Stoich.elementMassFraction tgt e ≠ .ok 0) (ha : convertCompound rnd m src tgt e = .ok a)
    (hb : convertCompound rnd a tgt src e = .ok b) : Within v 4 m b := by
  have N0 := A.N0; have t0 := A.t0; have v1 := A.v1; have v0 := A.v0; have N1 := A.N1
  have m0 := given_nonneg A hm
  unfold convertCompound at ha hb
  rcases fraction_cases A tgt e h2 with ⟨x, a1, a2⟩ | ⟨f, g, a1, a2, a3, a4, a5, a6, a7⟩
  · rw [a2] at ha; cases ha
  · rcases fraction_cases A src e h1 with ⟨x, b1, b2⟩ | ⟨f', g', b1, b2, b3, b4, b5, b6, b7⟩
    · rw [b2] at hb; cases hb
    · have f0 : f ≠ 0 := fun h => ht (by rw [a1, h])
      have f0' : f' ≠ 0 := fun h => hs (by rw [b1, h])
      have g0 : g ≠ 0 := fun h => f0 (a6.2 h)
      have g0' : g' ≠ 0 := fun h => f0' (b6.2 h)
      have gpos : 0 < g := lt_of_le_of_ne (a3.nonneg A) (Ne.symm g0)
      have gpos' : 0 < g' := lt_of_le_of_ne (b3.nonneg A) (Ne.symm g0')
      rw [a2, b2] at ha
      rw [a2, b2] at hb
      dsimp only at ha hb
      rw [if_neg g0] at ha
      rw [if_neg g0'] at hb
      cases ha
      cases hb
      have b7 := b7.resolve_left g0'
      have q : m = 0 ∨ 2 * (1 - v) * t ≤ m * g' := by
        refine hm.2.imp id (fun h => ?_)
        have c1 : t * (2 ^ 17 * N) * g' ≤ m * g' := mul_le_mul_of_nonneg_right h gpos'.le
        have c2 : t * (1 - v) ≤ t * (g' * (2 ^ 16 * N)) := mul_le_mul_of_nonneg_left b7 t0.le
        have c3 : t * (2 ^ 17 * N) * g' = 2 * (t * (g' * (2 ^ 16 * N))) := by ring
        nlinarith
      have w1 : Within v 1 (m * g') (rnd (m * g')) := within_round A (q.imp (fun h => by rw [h, zero_mul]) (fun h => by nlinarith))
      have w2 : Within v 1 (rnd (m * g') / g) (rnd (rnd (m * g') / g)) := by
        refine within_round A ?_
        rcases q with q | q
        · left; rw [q, zero_mul, A.ieee.zero, zero_div]
        · right
          have : t ≤ rnd (m * g') := A.ieee.float_le A.tf (by nlinarith)
          rw [le_div_iff₀ gpos]; nlinarith
      have w3 : Within v 2 (m * g') (rnd (rnd (m * g') / g) * g) := by
        have := (w1.trans A (Within.self (v := v) (w1.nonneg A)))
        have k := w2.mul A (Within.self (v := v) gpos.le)
        rw [div_mul_cancel₀ _ g0] at k
        exact w1.trans A k
      have q3 : m = 0 ∨ t ≤ rnd (rnd (m * g') / g) * g := by
        refine q.imp id (fun q => ?_)
        have := w3.2.1
        have c : (1 - v) ^ 3 ≥ 1 / 2 := half_le A (by norm_num)
        have : 2 * (1 - v) * t * (1 - v) ^ 2 ≤ m * g' * (1 - v) ^ 2 := mul_le_mul_of_nonneg_right q (pow_pos' A 2).le
        nlinarith
      have w4 : Within v 1 (rnd (rnd (m * g') / g) * g) (rnd (rnd (rnd (m * g') / g) * g)) := by
        refine within_round A (q3.imp (fun h => ?_) id)
        rw [h, zero_mul, A.ieee.zero, zero_div, A.ieee.zero, zero_mul]
      have w5 := (w3.trans A w4).div A (Within.self (v := v) gpos'.le) g0'
      rw [mul_div_cancel_right₀ _ g0'] at w5
      refine w5.trans A (within_round A ?_)
      rcases q3 with q3 | q3
      · left; rw [q3, zero_mul, A.ieee.zero, zero_div, A.ieee.zero, zero_mul, A.ieee.zero, zero_div]
      · right
        have : t ≤ rnd (rnd (rnd (m * g') / g) * g) := A.ieee.float_le A.tf q3
        rw [le_div_iff₀ gpos']; nlinarith

end Auxi.StoichFloat.Props
