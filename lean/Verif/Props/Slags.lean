import Verif.Props.PhysMix

/-!
# Properties C84 and C85, and C81 for slags
-/
namespace Auxi.Phys.Props
open Auxi Auxi.Phys
open Auxi.Stoich (CDict)
open Classical

/-- The entry of a composition, zero if there is none. -/
def entry (x : CDict) (c : String) : ℚ := match x.lookup c.toList with
  | some v => v
  | none => 0

theorem get_entry (x : CDict) (c : String) : get x c = entry x c := by
  unfold get entry; cases x.lookup c.toList <;> rfl

theorem lookup_scaled (k : ℚ) (x : CDict) (c : Str) : (scaled k x).lookup c = (x.lookup c).map (k * ·) := by
  induction x with
  | nil => rfl
  | cons e x ih =>
    obtain ⟨c', v⟩ := e
    change List.lookup c ((c', k * v) :: scaled k x) = _
    rw [List.lookup_cons, List.lookup_cons]
    cases c == c'
    · exact ih
    · rfl

theorem get_scaled (k : ℚ) (x : CDict) (c : String) : get (scaled k x) c = k * get x c := by
  unfold get; rw [lookup_scaled]; cases x.lookup c.toList <;> simp

/-! ## The scale of a composition -/

theorem normAll_zero {x : CDict} (h : x ≠ [] ∧ total x = 0) : normAll x = .error .zeroDivisionError := by unfold normAll; exact if_pos h
theorem normAll_ok {x : CDict} (h : ¬ (x ≠ [] ∧ total x = 0)) : normAll x = .ok (scaled (1 / total x) x) := by
  unfold normAll; rw [if_neg h]; congr 1; unfold scaled; refine List.map_congr_left fun e _ => ?_; rw [one_div, inv_mul_eq_div]

theorem scaled_scaled (a b : ℚ) (x : CDict) : scaled a (scaled b x) = scaled (a * b) x := by
  unfold scaled; rw [List.map_map]; refine List.map_congr_left fun e _ => ?_; simp [mul_assoc]

theorem normAll_scaled {k : ℚ} (hk : k ≠ 0) (x : CDict) : normAll (scaled k x) = normAll x := by
  have h1 : (scaled k x ≠ [] ∧ total (scaled k x) = 0) ↔ (x ≠ [] ∧ total x = 0) := by rw [total_scaled]; unfold scaled; simp [hk]
  by_cases h : x ≠ [] ∧ total x = 0
  · rw [normAll_zero h, normAll_zero (h1.2 h)]
  · rw [normAll_ok h, normAll_ok (fun h' => h (h1.1 h')), scaled_scaled, total_scaled]
    rw [one_div, one_div, mul_inv, mul_comm k⁻¹, mul_assoc, inv_mul_cancel₀ hk, mul_one]

theorem urbain_scaled (T : ℝ) {k : ℚ} (hk : k ≠ 0) (x : CDict) : urbain T (scaled k x) = urbain T x := by
  unfold urbain; rw [normAll_scaled hk]

theorem put_scaled (k : ℚ) (d : CDict) (c : Str) (v : ℚ) : put (scaled k d) c (k * v) = scaled k (put d c v) := by
  unfold put
  have : (scaled k d).map (·.1) = d.map (·.1) := by unfold scaled; rw [List.map_map]; rfl
  rw [this]
  by_cases h : c ∈ d.map (·.1)
  · rw [if_pos h, if_pos h]
    unfold scaled
    rw [List.map_map, List.map_map]
    refine List.map_congr_left fun e _ => ?_
    simp only [Function.comp_apply]
    by_cases he : e.1 = c
    · rw [if_pos he, if_pos he]
    · rw [if_neg he, if_neg he]
  · rw [if_neg h, if_neg h]
    unfold scaled; rw [List.map_append]; rfl

theorem convert_scaled (k : ℚ) (d : CDict) (a b : String) : convert (scaled k d) a b = scaled k (convert d a b) := by
  unfold convert
  rw [lookup_scaled]
  cases d.lookup a.toList with
  | none => rfl
  | some v =>
    simp only [Option.map_some]
    rw [← put_scaled]; congr 1; ring

theorem riboudDict_scaled (k : ℚ) (x : CDict) : riboudDict (scaled k x) = scaled k (riboudDict x) := by
  unfold riboudDict; rw [convert_scaled, convert_scaled, convert_scaled]

theorem sumOf_scaled (k : ℚ) (x : CDict) (cs : List String) : sumOf (scaled k x) cs = k * sumOf x cs := by
  unfold sumOf
  rw [← List.sum_map_mul_left]
  congr 1
  exact List.map_congr_left fun c _ => get_scaled k x c

theorem riboud_scaled (T : ℝ) {k : ℚ} (hk : k ≠ 0) (x : CDict) : (riboud T (scaled k x)).1 = (riboud T x).1 := by
  unfold riboud
  simp only [riboudDict_scaled, sumOf_scaled]
  by_cases h : sumOf (riboudDict x) cAll = 0
  · rw [if_pos h, if_pos (by rw [h, mul_zero])]
  · rw [if_neg h, if_neg (mul_ne_zero hk h)]
    simp only [mul_div_mul_left _ _ hk]
    by_cases hT : T = 0
    · rw [if_pos hT, if_pos hT]
    · rw [if_neg hT, if_neg hT]

theorem getNumT (T : ℝ) (x : CDict) : getNum (tx T x) "T".toList = .ok T := by simp [tx, getNum, List.lookup]

theorem lookup_T (T : ℝ) (x : CDict) : (tx T x).lookup "T".toList = some (.num T) := rfl
theorem lookup_x (T : ℝ) (x : CDict) : (tx T x).lookup "x".toList = some (.dict x) := rfl

theorem urbainTx_eq (T : ℝ) (x : CDict) : urbainTx (tx T x) = urbain T x := by unfold urbainTx; rw [lookup_T, getDictx]; rfl

theorem riboud_snd (T : ℝ) (x : CDict) : (riboud T x).2 = riboudDict x := by
  unfold riboud
  dsimp only
  split
  · rfl
  · split <;> rfl

theorem riboudTx_eq (T : ℝ) (x : CDict) : riboudTx (tx T x) = ((riboud T x).1, tx T (riboud T x).2) := by
  unfold riboudTx
  rw [lookup_T, lookup_x, riboud_snd]
  simp [tx, atT]

theorem atT_ok {f : ℝ → Res ℝ} {t : Val} {v : ℝ} (h : atT f t = .ok v) : ∃ T, t = .num T ∧ f T = .ok v := by
  unfold atT at h
  split at h
  · exact ⟨_, rfl, h⟩
  · split at h <;> cases h

/-- **C84** (scale): the viscosity depends only on the ratios of the composition. -/
theorem C84_scale (T : ℝ) {k : ℚ} (hk : k ≠ 0) (x : CDict) :
    urbainTx (tx T (scaled k x)) = urbainTx (tx T x) ∧ (riboudTx (tx T (scaled k x))).1 = (riboudTx (tx T x)).1 := by
  rw [urbainTx_eq, urbainTx_eq, riboudTx_eq, riboudTx_eq]
  exact ⟨urbain_scaled T hk x, riboud_scaled T hk x⟩

/-! ## Sign -/

theorem exp_form {a b T v : ℝ} (h : Real.exp a * T * Real.exp b / 10 = v) : ∃ p, 0 < p ∧ v = p * T :=
  ⟨Real.exp a * Real.exp b / 10, by positivity, by rw [← h]; ring⟩

theorem urbain_sign {T v : ℝ} {x : CDict} (h : urbain T x = .ok v) : T ≠ 0 ∧ ∃ p, 0 < p ∧ v = p * T := by
  unfold urbain at h
  split at h
  · cases h
  · simp only at h
    split at h
    · cases h
    · split at h
      · cases h
      · split at h
        · cases h
        · next hT =>
          exact ⟨hT, exp_form (Except.ok.inj h)⟩

theorem riboud_sign {T v : ℝ} {x : CDict} (h : (riboud T x).1 = .ok v) : T ≠ 0 ∧ ∃ p, 0 < p ∧ v = p * T := by
  unfold riboud at h
  simp only at h
  split at h
  · cases h
  · split at h
    · cases h
    · next hT =>
      exact ⟨hT, exp_form (Except.ok.inj h)⟩

/-- The results of the slag models, by temperature and composition in mole or mass fractions. -/
def Viscosity (st : State) (v : ℝ) : Prop := urbainTx st = .ok v ∨ (riboudTx st).1 = .ok v ∨ urbainTy st = .ok v ∨ (riboudTy st).1 = .ok v

theorem viscosity_sign {st : State} {v : ℝ} (h : Viscosity st v) : ∃ T, st.lookup "T".toList = some (.num T) ∧ T ≠ 0 ∧ ∃ p, 0 < p ∧ v = p * T := by
  rcases h with h | h | h | h
  · unfold urbainTx at h
    split at h
    · cases h
    · next t e =>
      split at h
      · cases h
      · obtain ⟨T, rfl, h⟩ := atT_ok h
        exact ⟨T, e, urbain_sign h⟩
  · unfold riboudTx at h
    split at h
    · cases h
    · next t e =>
      split at h
      · cases h
      · cases h
      · cases h
      · obtain ⟨T, rfl, h⟩ := atT_ok h
        exact ⟨T, e, riboud_sign h⟩
  · unfold urbainTy at h
    split at h
    · cases h
    · next t e =>
      split at h
      · cases h
      · split at h
        · cases h
        · obtain ⟨T, rfl, h⟩ := atT_ok h
          exact ⟨T, e, urbain_sign h⟩
  · unfold riboudTy at h
    split at h
    · cases h
    · next t e =>
      split at h
      · cases h
      · split at h
        · cases h
        · obtain ⟨T, rfl, h⟩ := atT_ok h
          exact ⟨T, e, riboud_sign h⟩

/-- **C84** (sign): every viscosity returned at a positive temperature is positive. -/
theorem C84_positive {st : State} {v T : ℝ} (h : Viscosity st v) (hT : st.lookup "T".toList = some (.num T)) (h0 : 0 < T) : 0 < v := by
  obtain ⟨T', h1, -, p, hp, rfl⟩ := viscosity_sign h
  rw [hT] at h1; cases h1
  exact mul_pos hp h0

/-- **C84, C81** (negative): the slag models do not look at their schema, and at every negative temperature for which they return a value it is a negative viscosity. -/
theorem C84_negative {st : State} {v T : ℝ} (h : Viscosity st v) (hT : st.lookup "T".toList = some (.num T)) (h0 : T < 0) : v < 0 := by
  obtain ⟨T', h1, -, p, hp, rfl⟩ := viscosity_sign h
  rw [hT] at h1; cases h1
  exact mul_neg_of_pos_of_neg hp h0

/-- **C81** (slags): a value is returned only if temperature and composition are given as a number other than zero and a dictionary. -/
theorem C81_slag {st : State} {v : ℝ} (h : Viscosity st v) : ∃ T, st.lookup "T".toList = some (.num T) ∧ T ≠ 0 := by
  obtain ⟨T, h1, h2, -⟩ := viscosity_sign h
  exact ⟨T, h1, h2⟩

/-! ## When a value is returned -/

/-- The oxides the Urbain model counts as basic or amphoteric. -/
def modifiers : List String := ["CaO", "MgO", "Na2O", "K2O", "CaF2", "FeO", "MnO", "TiO2", "ZrO2", "Al2O3", "Fe2O3", "B2O3"]

theorem entry_nonneg {x : CDict} (h : ∀ e ∈ x, 0 ≤ e.2) (c : String) : 0 ≤ get x c := by
  unfold get
  cases hl : x.lookup c.toList with
  | none => simp
  | some v => simpa using h _ (mem_of_lookup hl)

theorem scaled_nonneg {k : ℚ} (hk : 0 ≤ k) {x : CDict} (h : ∀ e ∈ x, 0 ≤ e.2) : ∀ e ∈ scaled k x, 0 ≤ e.2 := by
  intro e he
  obtain ⟨e', he', rfl⟩ := List.mem_map.1 he
  exact mul_nonneg hk (h e' he')

theorem xmxa_pos {x : CDict} (h : ∀ e ∈ x, 0 ≤ e.2) {c : String} (hc : c ∈ modifiers) (hp : 0 < get x c) : 0 < xm x + xa x := by
  have n := entry_nonneg h
  have h1 := n "CaO"; have h2 := n "MgO"; have h3 := n "Na2O"; have h4 := n "K2O"; have h5 := n "CaF2"; have h6 := n "FeO"; have h7 := n "MnO"
  have h8 := n "TiO2"; have h9 := n "ZrO2"; have h10 := n "Al2O3"; have h11 := n "Fe2O3"; have h12 := n "B2O3"
  unfold xm xa
  simp only [modifiers, List.mem_cons, List.not_mem_nil, or_false] at hc
  rcases hc with rfl | rfl | rfl | rfl | rfl | rfl | rfl | rfl | rfl | rfl | rfl | rfl <;> linarith

theorem norm_pos {x : CDict} (h : ∀ e ∈ x, 0 ≤ e.2) : 0 < norm x := by
  have n := entry_nonneg h
  have h5 := n "CaF2"; have h8 := n "TiO2"; have h9 := n "ZrO2"; have h11 := n "Fe2O3"
  unfold norm; linarith

theorem total_entry_pos {x : CDict} (h : ∀ e ∈ x, 0 ≤ e.2) {c : String} (hp : 0 < get x c) : 0 < total x := by
  unfold get at hp
  cases hl : x.lookup c.toList with
  | none => rw [hl] at hp; simp at hp
  | some v =>
    rw [hl] at hp
    have hm := mem_of_lookup hl
    unfold total
    refine lt_of_lt_of_le (by simpa using hp) (List.single_le_sum (l := x.map (·.2)) ?_ v (List.mem_map.2 ⟨_, hm, rfl⟩))
    intro a ha
    obtain ⟨e', he', rfl⟩ := List.mem_map.1 ha
    exact h e' he'

/-- **C84** (defined, Urbain): a value is returned for every temperature other than zero and every composition without negative entries that has some basic or
amphoteric oxide. -/
theorem C84_urbain_defined {T : ℝ} (hT : T ≠ 0) {x : CDict} (h : ∀ e ∈ x, 0 ≤ e.2) {c : String} (hc : c ∈ modifiers) (hp : 0 < entry x c) :
    ∃ v, urbainTx (tx T x) = .ok v := by
  rw [← get_entry] at hp
  have ht := total_entry_pos h hp
  rw [urbainTx_eq]
  unfold urbain
  rw [normAll_ok (fun h => ht.ne' h.2)]
  have hk : 0 < 1 / total x := one_div_pos.2 ht
  have hs := scaled_nonneg hk.le h
  have hn := norm_pos hs
  have hp' : 0 < get (scaled (1 / total x) x) c := by rw [get_scaled]; exact mul_pos hk hp
  have hma := xmxa_pos hs hc hp'
  simp only
  rw [if_neg hn.ne', if_neg (by rw [← add_div]; exact (div_pos hma hn).ne'), if_neg hT]
  exact ⟨_, rfl⟩

/-- **C84** (negative, Urbain): pure silica, which the model has a category for, and any other composition without a basic or amphoteric oxide, is refused by a division
by zero. -/
theorem C84_urbain_silica (T : ℝ) (x : CDict) (h : ∀ c ∈ modifiers, entry x c = 0) : urbainTx (tx T x) = .error .zeroDivisionError := by
  rw [urbainTx_eq]
  unfold urbain
  by_cases hz : x ≠ [] ∧ total x = 0
  · rw [normAll_zero hz]
  · rw [normAll_ok hz]
    have hg : ∀ c ∈ modifiers, get (scaled (1 / total x) x) c = 0 := by
      intro c hc; rw [get_scaled, get_entry, h c hc, mul_zero]
    have hm : xm (scaled (1 / total x) x) = 0 := by
      unfold xm
      rw [hg "CaO" (by decide), hg "MgO" (by decide), hg "Na2O" (by decide), hg "K2O" (by decide), hg "CaF2" (by decide), hg "FeO" (by decide),
        hg "MnO" (by decide), hg "TiO2" (by decide), hg "ZrO2" (by decide)]; norm_num
    have ha : xa (scaled (1 / total x) x) = 0 := by
      unfold xa; rw [hg "Al2O3" (by decide), hg "Fe2O3" (by decide), hg "B2O3" (by decide)]; norm_num
    simp only [hm, ha, zero_div, add_zero, if_pos]
    split <;> rfl

/-- Pure silica. -/
example (T : ℝ) : urbainTx (tx T [("SiO2".toList, 1)]) = .error .zeroDivisionError :=
  C84_urbain_silica T _ (by decide +kernel)

/-! ## C85: what a call does to the composition -/

theorem lookup_put (d : CDict) (k c : Str) (v : ℚ) : (put d k v).lookup c = if c = k then some v else d.lookup c := by
  unfold put
  by_cases hk : k ∈ d.map (·.1)
  · rw [if_pos hk]
    induction d with
    | nil => simp at hk
    | cons e d ih =>
      obtain ⟨k', w⟩ := e
      rw [List.map_cons]
      by_cases he : k' = k
      · subst he
        simp only [if_pos]
        rw [List.lookup_cons, List.lookup_cons]
        by_cases hc : c = k'
        · subst hc; simp
        · have : (c == k') = false := by simpa using hc
          rw [this, if_neg hc]
          by_cases hk2 : k' ∈ d.map (·.1)
          · rw [ih hk2, if_neg hc]
          · have : d.map (fun e => if e.1 = k' then (k', v) else e) = d := by
              conv_rhs => rw [← List.map_id d]
              refine List.map_congr_left fun e he => ?_
              rw [if_neg]; rfl
              intro h; exact hk2 (List.mem_map.2 ⟨e, he, h⟩)
            rw [this]
      · rw [if_neg he, List.lookup_cons, List.lookup_cons]
        have hk2 : k ∈ d.map (·.1) := by
          rcases List.mem_cons.1 (by simpa using hk : k ∈ k' :: d.map (·.1)) with h | h
          · exact absurd h.symm he
          · exact h
        by_cases hc : c = k'
        · subst hc; simp [he]
        · have : (c == k') = false := by simpa using hc
          rw [this]; exact ih hk2
  · rw [if_neg hk]
    induction d with
    | nil =>
      simp only [List.nil_append, List.lookup_cons, List.lookup_nil]
      by_cases hc : c = k
      · subst hc; simp
      · have : (c == k) = false := by simpa using hc
        rw [this, if_neg hc]
    | cons e d ih =>
      obtain ⟨k', w⟩ := e
      rw [List.map_cons, List.mem_cons, not_or] at hk
      rw [List.cons_append, List.lookup_cons, List.lookup_cons, ih hk.2]
      by_cases hc : c = k'
      · subst hc; simp [Ne.symm hk.1]
      · have : (c == k') = false := by simpa using hc
        rw [this]

theorem lookup_convert (d : CDict) (a b : String) (c : Str) : (convert d a b).lookup c = if c = b.toList ∧ (d.lookup a.toList).isSome then (d.lookup a.toList).map (2 * ·) else d.lookup c := by
  unfold convert
  cases h : d.lookup a.toList with
  | none => simp
  | some v => rw [lookup_put]; by_cases hc : c = b.toList <;> simp [hc]

theorem ite3 {α : Type} {p1 p2 p3 s1 s2 s3 : Prop} [Decidable (p1 ∧ s1)] [Decidable (p2 ∧ s2)] [Decidable (p3 ∧ s3)] (h12 : p1 → ¬ p2) (h13 : p1 → ¬ p3) (h23 : p2 → ¬ p3)
    (a b d r : α) : (if p3 ∧ s3 then d else if p2 ∧ s2 then b else if p1 ∧ s1 then a else r) = if p1 ∧ s1 then a else if p2 ∧ s2 then b else if p3 ∧ s3 then d else r := by
  by_cases q1 : p1
  · have := h12 q1; have := h13 q1; simp [*]
  · by_cases q2 : p2
    · have := h23 q2; simp [*]
    · simp [*]

/-- The dictionary after a call. -/
theorem lookup_riboudDict (x : CDict) (c : Str) : (riboudDict x).lookup c =
    if c = "PO2.5".toList ∧ (x.lookup "P2O5".toList).isSome then (x.lookup "P2O5".toList).map (2 * ·)
    else if c = "FeO1.5".toList ∧ (x.lookup "Fe2O3".toList).isSome then (x.lookup "Fe2O3".toList).map (2 * ·)
    else if c = "BO1.5".toList ∧ (x.lookup "B2O3".toList).isSome then (x.lookup "B2O3".toList).map (2 * ·) else x.lookup c := by
  unfold riboudDict
  have e1 : (convert x "P2O5" "PO2.5").lookup "Fe2O3".toList = x.lookup "Fe2O3".toList := by rw [lookup_convert, if_neg (by rintro ⟨h, -⟩; exact absurd h (by decide))]
  have e2 : (convert (convert x "P2O5" "PO2.5") "Fe2O3" "FeO1.5").lookup "B2O3".toList = x.lookup "B2O3".toList := by
    rw [lookup_convert, if_neg (by rintro ⟨h, -⟩; exact absurd h (by decide)), lookup_convert, if_neg (by rintro ⟨h, -⟩; exact absurd h (by decide))]
  rw [lookup_convert, e2, lookup_convert, e1, lookup_convert]
  have h12 : c = "PO2.5".toList → ¬ c = "FeO1.5".toList := by rintro rfl; decide
  have h13 : c = "PO2.5".toList → ¬ c = "BO1.5".toList := by rintro rfl; decide
  have h23 : c = "FeO1.5".toList → ¬ c = "BO1.5".toList := by rintro rfl; decide
  exact ite3 h12 h13 h23 _ _ _ _

/-- The composition entry of a state. -/
def compositionOf (st : State) : CDict := match st.lookup "x".toList with
  | some (.dict x) => x
  | _ => []

theorem compositionOf_tx (T : ℝ) (x : CDict) : compositionOf (tx T x) = x := by simp [compositionOf, tx, List.lookup]

theorem sumOf_congr {x y : CDict} (h : ∀ c, x.lookup c = y.lookup c) (cs : List String) : sumOf x cs = sumOf y cs := by
  unfold sumOf
  congr 1
  refine List.map_congr_left fun c _ => ?_
  unfold get; rw [h]

theorem riboud_congr {x y : CDict} (h : ∀ c, (riboudDict x).lookup c = (riboudDict y).lookup c) (T : ℝ) : (riboud T x).1 = (riboud T y).1 := by
  unfold riboud
  simp only [sumOf_congr h]
  split
  · rfl
  · split <;> rfl

/-- **C85** (negative): a Riboud call on a composition with phosphorus leaves another composition behind, and the Urbain viscosity of that one is not the viscosity
of the composition the caller made. -/
theorem C85_violated : ∃ x : CDict, compositionOf (riboudTx (tx 1500 x)).2 ≠ x ∧
    (compositionOf (riboudTx (tx 1500 x)).2).lookup "PO2.5".toList = some 2 ∧ x.lookup "PO2.5".toList = none ∧
    ∃ v w, urbainTx (tx 1500 x) = .ok v ∧ urbainTx (riboudTx (tx 1500 x)).2 = .ok w ∧ w ≠ v := by
  have hd : riboudDict [("CaO".toList, 2), ("P2O5".toList, 1)] = [("CaO".toList, 2), ("P2O5".toList, 1), ("PO2.5".toList, 2)] := by decide +kernel
  have h2 : ∀ T : ℝ, (riboud T [("CaO".toList, 2), ("P2O5".toList, 1)]).2 = [("CaO".toList, 2), ("P2O5".toList, 1), ("PO2.5".toList, 2)] := by
    intro T
    unfold riboud
    simp only [hd]
    split
    · rfl
    · split <;> rfl
  refine ⟨[("CaO".toList, 2), ("P2O5".toList, 1)], ?_, ?_, by decide +kernel, ?_⟩
  · rw [riboudTx_eq, compositionOf_tx, h2]; decide +kernel
  · rw [riboudTx_eq, compositionOf_tx, h2]; decide +kernel
  · rw [riboudTx_eq]
    simp only [urbainTx_eq, h2]
    have n1 : normAll [("CaO".toList, 2), ("P2O5".toList, 1)] = .ok [("CaO".toList, 2/3), ("P2O5".toList, 1/3)] := by decide +kernel
    have n2 : normAll [("CaO".toList, 2), ("P2O5".toList, 1), ("PO2.5".toList, 2)] = .ok [("CaO".toList, 2/5), ("P2O5".toList, 1/5), ("PO2.5".toList, 2/5)] := by decide +kernel
    have u : ∀ (x y : CDict) (B : ℚ), normAll x = .ok y → norm y ≠ 0 → xm y / norm y + xa y / norm y ≠ 0 →
        urbainB (xm y / norm y / (xm y / norm y + xa y / norm y)) (xg y / norm y) = B →
        urbain 1500 x = .ok (Real.exp (-0.2693 * (B : ℝ) - 11.6725) * 1500 * Real.exp (1000 * (B : ℝ) / 1500) / 10) := by
      intro x y B h1 h2 h3 h4
      unfold urbain
      rw [h1]
      simp only
      rw [if_neg h2, if_neg h3, if_neg (by norm_num), h4]
    rw [u _ _ _ n1 (by decide +kernel) (by decide +kernel) rfl, u _ _ _ n2 (by decide +kernel) (by decide +kernel) rfl]
    refine ⟨_, _, rfl, rfl, ?_⟩
    have b1 : urbainB (xm [("CaO".toList, 2/3), ("P2O5".toList, 1/3)] / norm [("CaO".toList, 2/3), ("P2O5".toList, 1/3)] /
      (xm [("CaO".toList, 2/3), ("P2O5".toList, 1/3)] / norm [("CaO".toList, 2/3), ("P2O5".toList, 1/3)] + xa [("CaO".toList, 2/3), ("P2O5".toList, 1/3)] / norm [("CaO".toList, 2/3), ("P2O5".toList, 1/3)]))
      (xg [("CaO".toList, 2/3), ("P2O5".toList, 1/3)] / norm [("CaO".toList, 2/3), ("P2O5".toList, 1/3)]) =
      urbainB 1 (1/3) := by decide +kernel
    have b2 : urbainB (xm [("CaO".toList, 2/5), ("P2O5".toList, 1/5), ("PO2.5".toList, 2/5)] / norm [("CaO".toList, 2/5), ("P2O5".toList, 1/5), ("PO2.5".toList, 2/5)] /
      (xm [("CaO".toList, 2/5), ("P2O5".toList, 1/5), ("PO2.5".toList, 2/5)] / norm [("CaO".toList, 2/5), ("P2O5".toList, 1/5), ("PO2.5".toList, 2/5)] + xa [("CaO".toList, 2/5), ("P2O5".toList, 1/5), ("PO2.5".toList, 2/5)] / norm [("CaO".toList, 2/5), ("P2O5".toList, 1/5), ("PO2.5".toList, 2/5)]))
      (xg [("CaO".toList, 2/5), ("P2O5".toList, 1/5), ("PO2.5".toList, 2/5)] / norm [("CaO".toList, 2/5), ("P2O5".toList, 1/5), ("PO2.5".toList, 2/5)]) =
      urbainB 1 (1/5) := by decide +kernel
    rw [b1, b2]
    intro h
    have h' : Real.exp (-0.2693 * ((urbainB 1 (1/5) : ℚ) : ℝ) - 11.6725 + 1000 * ((urbainB 1 (1/5) : ℚ) : ℝ) / 1500) =
        Real.exp (-0.2693 * ((urbainB 1 (1/3) : ℚ) : ℝ) - 11.6725 + 1000 * ((urbainB 1 (1/3) : ℚ) : ℝ) / 1500) := by
      rw [Real.exp_add, Real.exp_add]; linarith
    have h'' := Real.exp_injective h'
    have hB : ((urbainB 1 (1/5) : ℚ) : ℝ) = ((urbainB 1 (1/3) : ℚ) : ℝ) := by linarith
    have hB' : urbainB 1 (1/5) = urbainB 1 (1/3) := by exact_mod_cast hB
    unfold urbainB at hB'
    norm_num at hB'

/-- **C85** (partial): a Riboud call changes nothing but the entries of the single-cation oxides of phosphorus, iron(III) and boron, and those only if the
composition has the double-cation oxide. Missing from the full statement: nothing is changed. -/
theorem C85_riboud_partial (T : ℝ) (x : CDict) (c : Str) :
    (compositionOf (riboudTx (tx T x)).2).lookup c = x.lookup c ∨
    (c = "PO2.5".toList ∧ ∃ v, x.lookup "P2O5".toList = some v ∧ (compositionOf (riboudTx (tx T x)).2).lookup c = some (2 * v)) ∨
    (c = "FeO1.5".toList ∧ ∃ v, x.lookup "Fe2O3".toList = some v ∧ (compositionOf (riboudTx (tx T x)).2).lookup c = some (2 * v)) ∨
    (c = "BO1.5".toList ∧ ∃ v, x.lookup "B2O3".toList = some v ∧ (compositionOf (riboudTx (tx T x)).2).lookup c = some (2 * v)) := by
  have h2 : (riboud T x).2 = riboudDict x := by
    unfold riboud; simp only
    split
    · rfl
    · split <;> rfl
  rw [riboudTx_eq, compositionOf_tx, h2, lookup_riboudDict]
  by_cases h1 : c = "PO2.5".toList ∧ (x.lookup "P2O5".toList).isSome
  · rw [if_pos h1]
    obtain ⟨v, hv⟩ := Option.isSome_iff_exists.1 h1.2
    exact Or.inr (Or.inl ⟨h1.1, v, hv, by rw [hv]; rfl⟩)
  rw [if_neg h1]
  by_cases h2 : c = "FeO1.5".toList ∧ (x.lookup "Fe2O3".toList).isSome
  · rw [if_pos h2]
    obtain ⟨v, hv⟩ := Option.isSome_iff_exists.1 h2.2
    exact Or.inr (Or.inr (Or.inl ⟨h2.1, v, hv, by rw [hv]; rfl⟩))
  rw [if_neg h2]
  by_cases h3 : c = "BO1.5".toList ∧ (x.lookup "B2O3".toList).isSome
  · rw [if_pos h3]
    obtain ⟨v, hv⟩ := Option.isSome_iff_exists.1 h3.2
    exact Or.inr (Or.inr (Or.inr ⟨h3.1, v, hv, by rw [hv]; rfl⟩))
  rw [if_neg h3]
  exact Or.inl rfl

/-- **C85** (unchanged): a composition without phosphorus(V), iron(III) and boron oxide is left as it was. -/
theorem C85_unchanged {T : ℝ} {x : CDict} (h : ∀ c ∈ ["P2O5", "Fe2O3", "B2O3"], x.lookup c.toList = none) : (riboudTx (tx T x)).2 = tx T x := by
  have hd : riboudDict x = x := by
    unfold riboudDict convert
    rw [h "P2O5" (by decide)]; simp only
    rw [h "Fe2O3" (by decide)]; simp only
    rw [h "B2O3" (by decide)]
  have h2 : (riboud T x).2 = riboudDict x := by
    unfold riboud; simp only
    split
    · rfl
    · split <;> rfl
  rw [riboudTx_eq, h2, hd]

/-- **C85** (repetition): a second Riboud call with the composition the first one left behind gives the same viscosity, at whatever temperatures. -/
theorem C85_repeat (T U : ℝ) (x : CDict) : (riboudTx (tx U (compositionOf (riboudTx (tx T x)).2))).1 = (riboudTx (tx U x)).1 := by
  have h2 : (riboud T x).2 = riboudDict x := by
    unfold riboud; simp only
    split
    · rfl
    · split <;> rfl
  rw [riboudTx_eq T, compositionOf_tx, h2, riboudTx_eq, riboudTx_eq]
  refine riboud_congr (fun c => ?_) U
  have e : ∀ k : String, k ∈ ["P2O5", "Fe2O3", "B2O3"] → (riboudDict x).lookup k.toList = x.lookup k.toList := by
    intro k hk
    rw [lookup_riboudDict]
    simp only [List.mem_cons, List.not_mem_nil, or_false] at hk
    rcases hk with rfl | rfl | rfl <;>
      rw [if_neg (by rintro ⟨h, -⟩; exact absurd h (by decide)), if_neg (by rintro ⟨h, -⟩; exact absurd h (by decide)),
        if_neg (by rintro ⟨h, -⟩; exact absurd h (by decide))]
  rw [lookup_riboudDict (riboudDict x), e "P2O5" (by decide), e "Fe2O3" (by decide), e "B2O3" (by decide), lookup_riboudDict x c]
  by_cases h1 : c = "PO2.5".toList ∧ (x.lookup "P2O5".toList).isSome
  · rw [if_pos h1, if_pos h1]
  rw [if_neg h1]
  by_cases h2 : c = "FeO1.5".toList ∧ (x.lookup "Fe2O3".toList).isSome
  · rw [if_pos h2, if_neg h1, if_pos h2]
  rw [if_neg h2]
  by_cases h3 : c = "BO1.5".toList ∧ (x.lookup "B2O3".toList).isSome
  · rw [if_pos h3, if_neg h1, if_neg h2, if_pos h3]
  rw [if_neg h3]

/-- **C85** (mass fractions): a call with mass fractions leaves everything as it was. -/
theorem C85_mass_fractions (st : State) : (riboudTy st).2 = st := by
  unfold riboudTy
  split
  · rfl
  · split
    · rfl
    · split <;> rfl

end Auxi.Phys.Props
