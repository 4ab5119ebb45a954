import Verif.Spec.Chem
import Verif.Props.Stoich
import Mathlib.Algebra.BigOperators.Ring.List

/-!
# Lemmas about chem packages
-/
namespace Auxi.Chem
open Spec

/-! ### `indexOf` -/

theorem indexOf_some {l : List Str} {c : Str} {i : ℕ} (h : indexOf l c = some i) : l[i]? = some c := by
  induction l generalizing i with
  | nil => simp [indexOf] at h
  | cons a l ih =>
    simp only [indexOf] at h
    split at h
    · rename_i ha; cases h; simp [ha]
    · simp only [Option.map_eq_some_iff] at h
      obtain ⟨j, hj, rfl⟩ := h
      simpa using ih hj

theorem indexOf_isSome {l : List Str} {c : Str} : (indexOf l c).isSome = true ↔ c ∈ l := by
  induction l with
  | nil => simp [indexOf]
  | cons a l ih =>
    simp only [indexOf]
    split
    · rename_i ha; simp [ha]
    · rename_i ha
      have ha' : ¬ c = a := fun e => ha e.symm
      simp only [Option.isSome_map, ih, List.mem_cons, ha', false_or]

theorem indexOf_mem {l : List Str} {c : Str} (h : c ∈ l) : ∃ i, indexOf l c = some i ∧ i < l.length := by
  obtain ⟨i, hi⟩ := Option.isSome_iff_exists.1 (indexOf_isSome.2 h)
  have := indexOf_some hi
  exact ⟨i, hi, (List.getElem?_eq_some_iff.1 this).1⟩

theorem indexOf_none {l : List Str} {c : Str} (h : c ∉ l) : indexOf l c = none := by
  cases hi : indexOf l c with
  | none => rfl
  | some i => exact absurd (indexOf_isSome.1 (by rw [hi]; rfl)) h

theorem indexOf_nodup {l : List Str} (h : l.Nodup) {i : ℕ} {c : Str} (hi : l[i]? = some c) : indexOf l c = some i := by
  obtain ⟨j, hj, hlt⟩ := indexOf_mem (List.mem_of_getElem? hi)
  have := indexOf_some hj
  rw [hj]
  congr 1
  obtain ⟨a, b⟩ := List.getElem?_eq_some_iff.1 hi
  obtain ⟨a', b'⟩ := List.getElem?_eq_some_iff.1 this
  exact (List.Nodup.getElem_inj_iff h).1 (b'.trans b.symm)

/-! ### Contents -/

theorem content_eq (p : Package) (c : Str) : content p c = (((indexOf p.mat.compounds c).bind (p.masses[·]?)).map Num.val).getD 0 := by
  unfold content Package.compoundMass Material.index
  cases indexOf p.mat.compounds c with
  | none => rfl
  | some i =>
    simp only [Option.bind_some]
    cases h : p.masses[i]? with
    | none => simp
    | some x => simp

theorem content_of_index {p : Package} {c : Str} {i : ℕ} (h : indexOf p.mat.compounds c = some i) :
    content p c = ((p.masses[i]?).map Num.val).getD 0 := by rw [content_eq, h]; rfl

theorem content_not_mem {p : Package} {c : Str} (h : c ∉ p.mat.compounds) : content p c = 0 := by
  rw [content_eq, indexOf_none h]; rfl

/-- Changing one mass changes the content of that compound only. -/
theorem content_set {p : Package} {c : Str} {i : ℕ} (h : indexOf p.mat.compounds c = some i) (hi : i < p.masses.length) (y : Num) (c' : Str) :
    content { p with masses := p.masses.set i y } c' = if c' = c then y.val else content p c' := by
  by_cases hc : c' = c
  · subst hc
    rw [content_of_index (p := { p with masses := p.masses.set i y }) h]
    simp [hi]
  · simp only [hc, if_false]
    by_cases hm : c' ∈ p.mat.compounds
    · obtain ⟨j, hj, _⟩ := indexOf_mem hm
      rw [content_of_index (p := { p with masses := p.masses.set i y }) hj, content_of_index hj]
      have : i ≠ j := by
        rintro rfl
        have a := indexOf_some h
        rw [indexOf_some hj] at a
        exact hc (Option.some.inj a)
      simp [List.getElem?_set_ne this]
    · rw [content_not_mem hm, content_not_mem (p := { p with masses := p.masses.set i y }) hm]

/-- Applying a function to all masses applies it to all contents. -/
theorem content_map {p : Package} {c : Str} (f : Num → Num) (g : ℚ → ℚ) (hf : ∀ x, (f x).val = g x.val) (h0 : g 0 = 0) :
    content ⟨p.mat, p.masses.map f⟩ c = g (content p c) := by
  rw [content_eq, content_eq]
  cases indexOf p.mat.compounds c with
  | none => simp [h0]
  | some i =>
    simp only [Option.bind_some, List.getElem?_map]
    cases p.masses[i]? with
    | none => simp [h0]
    | some x => simp [hf]

theorem pySum_aux (l : List Num) (a : Num) : (l.foldl Num.add a).val = a.val + (l.map Num.val).sum := by
  induction l generalizing a with
  | nil => simp
  | cons x l ih => simp only [List.foldl_cons, ih, Num.add, List.map_cons, List.sum_cons]; ring

theorem pySum_val (l : List Num) : (pySum l).val = (l.map Num.val).sum := by
  simp [pySum, pySum_aux, int]

/-- The contents in compound order are the masses. -/
theorem contents_eq {p : Package} (hn : p.mat.compounds.Nodup) (h : PkgOK p) : p.mat.compounds.map (content p) = p.masses.map Num.val := by
  apply List.ext_getElem?
  intro i
  simp only [List.getElem?_map]
  cases hc : p.mat.compounds[i]? with
  | none =>
    have : p.masses[i]? = none := by
      rw [List.getElem?_eq_none_iff] at hc ⊢
      rw [h]; exact hc
    simp [this]
  | some c =>
    have hi : i < p.masses.length := by
      rw [h]; exact (List.getElem?_eq_some_iff.1 hc).1
    simp only [Option.map_some]
    rw [content_of_index (indexOf_nodup hn hc), List.getElem?_eq_getElem hi]
    simp

/-- The mass of a package is the sum of its contents. -/
theorem mass_eq {p : Package} (hn : p.mat.compounds.Nodup) (h : PkgOK p) : p.mass.val = (p.mat.compounds.map (content p)).sum := by
  rw [contents_eq hn h, Package.mass, pySum_val]

theorem compoundMass_ok {p : Package} {c : Str} (h : PkgOK p) (hc : c ∈ p.mat.compounds) : ∃ x, p.compoundMass c = .ok x ∧ x.val = content p c := by
  obtain ⟨i, hi, hlt⟩ := indexOf_mem hc
  have hlt' : i < p.masses.length := by rw [h]; exact hlt
  refine ⟨p.masses[i], ?_, ?_⟩
  · simp [Package.compoundMass, Material.index, hi, List.getElem?_eq_getElem hlt']
  · rw [content_of_index hi, List.getElem?_eq_getElem hlt']; simp

theorem compoundMass_content {p : Package} {c : Str} {x : Num} (h : p.compoundMass c = .ok x) : content p c = x.val := by
  simp [content, h]

/-! ### Adding -/

theorem addTuple_ok {p p' : Package} {c : Str} {x : Num} (h : p.addTuple c x = .ok p') :
    x.isFloat = true ∧ c ∈ p.mat.compounds ∧ p'.mat = p.mat ∧ p'.masses.length = p.masses.length ∧
    ∀ c', content p' c' = content p c' + if c' = c then x.val else 0 := by
  unfold Package.addTuple at h
  split at h
  · rename_i hf
    unfold Material.index at h
    cases hi : indexOf p.mat.compounds c with
    | none => rw [hi] at h; cases h
    | some i =>
      rw [hi] at h
      dsimp only at h
      cases hy : p.masses[i]? with
      | none => rw [hy] at h; cases h
      | some y =>
        rw [hy] at h
        cases h
        have hlt := (List.getElem?_eq_some_iff.1 hy).1
        refine ⟨hf, indexOf_isSome.1 (by rw [hi]; rfl), rfl, by simp, fun c' => ?_⟩
        rw [content_set hi hlt]
        by_cases hc : c' = c
        · subst hc
          simp only [if_true]
          rw [content_of_index hi, hy]; rfl
        · simp [hc]
  · cases h

theorem addTuple_succeeds {p : Package} {c : Str} {x : Num} (h : PkgOK p) (hc : c ∈ p.mat.compounds) (hx : x.isFloat = true) :
    ∃ p', p.addTuple c x = .ok p' := by
  obtain ⟨i, hi, hlt⟩ := indexOf_mem hc
  have hlt' : i < p.masses.length := by rw [h]; exact hlt
  simp [Package.addTuple, hx, Material.index, hi, List.getElem?_eq_getElem hlt']

theorem addLoop_spec (q : Package) : ∀ (cs : List Str) (p : Package) (r : Res Unit) (p' : Package), cs.Nodup → q.addLoop cs p = (r, p') →
    p'.mat = p.mat ∧ p'.masses.length = p.masses.length ∧
    ∃ pre post, cs = pre ++ post ∧ (r = .ok () ↔ post = []) ∧ (∀ c ∈ pre, c ∈ p.mat.compounds) ∧
      ∀ c, content p' c = content p c + if c ∈ pre then content q c else 0 := by
  intro cs
  induction cs with
  | nil =>
    intro p r p' _ h
    cases h
    exact ⟨rfl, rfl, [], [], rfl, by simp, by simp, by simp⟩
  | cons a cs ih =>
    intro p r p' hn h
    have fail : ∀ e : PyErr, ((.error e, p) : Res Unit × Package) = (r, p') → p'.mat = p.mat ∧ p'.masses.length = p.masses.length ∧
        ∃ pre post, a :: cs = pre ++ post ∧ (r = .ok () ↔ post = []) ∧ (∀ c ∈ pre, c ∈ p.mat.compounds) ∧
          ∀ c, content p' c = content p c + if c ∈ pre then content q c else 0 := by
      intro e he
      cases he
      exact ⟨rfl, rfl, [], a :: cs, rfl, by simp, by simp, by simp⟩
    simp only [Package.addLoop] at h
    split at h
    · exact fail _ h
    · split at h
      · exact fail _ h
      · rename_i x hx
        split at h
        · exact fail _ h
        · rename_i p1 hp1
          obtain ⟨t1, t2, t3, t4, t5⟩ := addTuple_ok hp1
          simp only [List.nodup_cons] at hn
          obtain ⟨i1, i2, pre, post, i3, i4, i5, i6⟩ := ih p1 r p' hn.2 h
          refine ⟨i1.trans t3, i2.trans t4, a :: pre, post, by rw [i3]; rfl, i4, ?_, ?_⟩
          · intro c hc
            rw [List.mem_cons] at hc
            rcases hc with rfl | hc
            · exact t2
            · rw [← t3]; exact i5 c hc
          · intro c
            rw [i6, t5]
            by_cases hc : c = a
            · subst hc
              have : c ∉ pre := fun hm => hn.1 (by rw [i3]; simp [hm])
              simp [this, compoundMass_content hx]
            · simp [hc]

theorem addLoop_succeeds (q : Package) (hq : PkgOK q) : ∀ (cs : List Str) (p : Package), PkgOK p → (∀ c ∈ cs, c ∈ p.mat.compounds ∧ c ∈ q.mat.compounds) →
    (∀ x ∈ q.masses, x.isFloat = true) → ∃ p', q.addLoop cs p = (.ok (), p') := by
  intro cs
  induction cs with
  | nil => intro p _ _ _; exact ⟨p, rfl⟩
  | cons a cs ih =>
    intro p hp hcs hf
    obtain ⟨x, hx, _⟩ := compoundMass_ok hq (hcs a (by simp)).2
    have hxf : x.isFloat = true := by
      apply hf
      unfold Package.compoundMass at hx
      split at hx
      · cases hx
      · split at hx
        · rename_i hy; cases hx; exact List.mem_of_getElem? hy
        · cases hx
    obtain ⟨p1, hp1⟩ := addTuple_succeeds hp (hcs a (by simp)).1 hxf
    obtain ⟨_, _, t3, t4, _⟩ := addTuple_ok hp1
    obtain ⟨p', hp'⟩ := ih p1 (by unfold PkgOK; rw [t4, t3]; exact hp) (fun c hc => by rw [t3]; exact hcs c (by simp [hc])) hf
    refine ⟨p', ?_⟩
    simp [Package.addLoop, (hcs a (by simp)).1, hx, hp1, hp']

/-! ### Element masses -/

theorem mapRes_ok {α β : Type} {f : α → Res β} {l : List α} {r : List β} (h : mapRes f l = .ok r) : List.Forall₂ (fun a b => f a = .ok b) l r := by
  induction l generalizing r with
  | nil => cases h; exact .nil
  | cons a l ih =>
    simp only [mapRes] at h
    split at h
    · cases h
    · rename_i b hb
      split at h
      · cases h
      · rename_i r' hr
        cases h
        exact .cons hb (ih hr)

theorem mapRes_of {α β : Type} {f : α → Res β} {g : α → β} {l : List α} (h : ∀ a ∈ l, f a = .ok (g a)) : mapRes f l = .ok (l.map g) := by
  induction l with
  | nil => rfl
  | cons a l ih => simp only [mapRes, h a (by simp), ih (fun x hx => h x (by simp [hx])), List.map_cons]

theorem emfs_ok {c : Str} {elts : List Str} {fs : List ℚ} (h : Stoich.elementMassFractions c elts = .ok fs) : fs = elts.map (share c) := by
  induction elts generalizing fs with
  | nil => cases h; rfl
  | cons e es ih =>
    simp only [Stoich.elementMassFractions] at h
    split at h
    · cases h
    · rename_i f hf
      split at h
      · cases h
      · rename_i fs' hfs
        cases h
        rw [List.map_cons, ← ih hfs]
        simp [share, hf]

theorem elementLoop_spec (p : Package) (elts : List Str) : ∀ (cs : List Str) (acc r : List Num), acc.length = elts.length →
    p.elementLoop elts cs acc = .ok r →
    r.map Num.val = List.zipWith (· + ·) (acc.map Num.val) (elts.map (fun e => (cs.map (fun c => content p c * share c e)).sum)) := by
  intro cs
  induction cs with
  | nil =>
    intro acc r hl h
    cases h
    simp only [List.map_nil, List.sum_nil]
    clear p
    induction acc generalizing elts with
    | nil => simp
    | cons a acc ih =>
      cases elts with
      | nil => simp at hl
      | cons e elts =>
        simp only [List.length_cons, Nat.add_right_cancel_iff] at hl
        simp only [List.map_cons, List.zipWith_cons_cons, add_zero, ← ih elts hl]
  | cons c cs ih =>
    intro acc r hl h
    simp only [Package.elementLoop] at h
    split at h
    · cases h
    · rename_i x hx
      split at h
      · cases h
      · rename_i fs hfs
        have e := emfs_ok hfs
        subst e
        rw [ih _ r (by simp [hl]) h]
        have hx' := compoundMass_content hx
        clear ih h hfs
        induction acc generalizing elts with
        | nil => simp
        | cons a acc ih2 =>
          cases elts with
          | nil => simp at hl
          | cons e elts =>
            simp only [List.length_cons, Nat.add_right_cancel_iff] at hl
            simp only [List.map_cons, List.zipWith_cons_cons, List.sum_cons]
            rw [ih2 elts hl]
            simp only [List.map_cons, Num.add, Num.mul, fl, hx', List.sum_cons, add_assoc]

theorem zipWith_zero (l : List ℚ) : List.zipWith (· + ·) (List.replicate l.length 0) l = l := by
  induction l with
  | nil => rfl
  | cons a l ih => simp only [List.length_cons, List.replicate_succ, List.zipWith_cons_cons, zero_add, ih]

theorem elementMasses_eq {p : Package} {r : List Num} (h : p.elementMasses = .ok r) : r.map Num.val = p.mat.elements.map (elementContent p) := by
  have := elementLoop_spec p p.mat.elements _ _ r (by simp) h
  rw [this]
  have e := zipWith_zero (p.mat.elements.map (elementContent p))
  simp only [List.length_map] at e
  simp only [List.map_replicate, int]
  exact e

theorem sum_indicator (w : Str → ℚ) (k : Str) (v : ℚ) (E : List Str) (hE : E.Nodup) (hk : k ∈ E) :
    (E.map (fun e => (if e = k then v else 0) * w e)).sum = v * w k := by
  induction E with
  | nil => cases hk
  | cons x E ih =>
    simp only [List.nodup_cons] at hE
    simp only [List.map_cons, List.sum_cons]
    by_cases hx : x = k
    · subst hx
      have : (E.map (fun e => (if e = x then v else 0) * w e)).sum = 0 := by
        apply List.sum_eq_zero
        intro y hy
        rw [List.mem_map] at hy
        obtain ⟨z, hz, rfl⟩ := hy
        have : z ≠ x := fun e => hE.1 (e ▸ hz)
        simp [this]
      rw [this]; simp
    · have : k ∈ E := by
        rw [List.mem_cons] at hk
        exact hk.elim (fun e => absurd e.symm hx) id
      rw [ih hE.2 this]; simp [hx]

theorem sum_get (w : Str → ℚ) (E : List Str) (hE : E.Nodup) (d : Stoich.Counts) (hd : (d.map (·.1)).Nodup) (hs : ∀ k ∈ d.map (·.1), k ∈ E) :
    (E.map (fun e => d.get e * w e)).sum = Stoich.wsum w d := by
  induction d with
  | nil =>
    apply (List.sum_eq_zero ?_).trans
    · rfl
    · intro y hy
      rw [List.mem_map] at hy
      obtain ⟨z, _, rfl⟩ := hy
      simp [Stoich.Counts.get]
  | cons a d ih =>
    obtain ⟨k, v⟩ := a
    simp only [List.map_cons, List.nodup_cons] at hd
    have ih := ih hd.2 (fun q hq => hs q (by simp only [List.map_cons, List.mem_cons]; exact .inr hq))
    have hk : k ∈ E := hs k (by simp)
    have hget : ∀ e, Stoich.Counts.get ((k, v) :: d) e = (if e = k then v else 0) + Stoich.Counts.get d e := by
      intro e
      by_cases h : e = k
      · subst h
        have : d.lookup e = none := Stoich.Props.lookup_none hd.1
        simp [Stoich.Counts.get, this]
      · have hb : (e == k) = false := by simpa using h
        simp [Stoich.Counts.get, List.lookup_cons, hb, h]
    have : (E.map (fun e => Stoich.Counts.get ((k, v) :: d) e * w e)).sum =
        (E.map (fun e => (if e = k then v else 0) * w e)).sum + (E.map (fun e => Stoich.Counts.get d e * w e)).sum := by
      rw [← List.sum_map_add]
      congr 1
      apply List.map_congr_left
      intro e _
      rw [hget]; ring
    rw [this, ih, sum_indicator w k v E hE hk]
    simp only [Stoich.wsum, List.map_cons, List.sum_cons]; ring

open Stoich in
/-- The element fractions of a formula: always defined, and the count times the atomic mass over the molar mass. -/
theorem emf_total {c : Str} (h : Stoich.Spec.IsFormula c) : ∃ t cp, Stoich.Spec.TreeOK t ∧ Stoich.Spec.text t = c ∧ visitTree t = .ok cp ∧
      molarMass c = .ok (wsum Stoich.Spec.massOf cp.count) ∧
      ∀ e, elementMassFraction c e = .ok (cp.count.get e * Stoich.Spec.massOf e / wsum Stoich.Spec.massOf cp.count) := by
  obtain ⟨t, ht, rfl, hk⟩ := h
  obtain ⟨cp, hcp⟩ := visitTree_ok t hk
  obtain ⟨v1, v2, v3, _⟩ := visitTree_spec t cp hcp
  have hmm : molarMass (Stoich.Spec.text t) = .ok (wsum Stoich.Spec.massOf cp.count) := by
    simp [molarMass, Stoich.Props.text_ne_nil t ht, Stoich.Props.strip_text' t ht, Stoich.Props.parse_text t ht, hcp, Except.map, Stoich.Props.molarMass_wsum]
  refine ⟨t, cp, ht, rfl, hcp, hmm, fun e => ?_⟩
  have hco : coefficient (Stoich.Spec.text t) e = .ok (cp.count.get e) := by
    simp [coefficient, Stoich.Props.strip_text' t ht, Stoich.Props.parse_text t ht, hcp, Except.map]
  unfold elementMassFraction
  rw [hco]
  dsimp only
  split
  · rename_i h0; rw [h0]; simp
  · rename_i h0
    have hke := Stoich.Props.known_of_coefficient hco h0
    rw [hmm, Stoich.Props.molarMass_symbol hke]
    dsimp only
    have hpos := Stoich.Props.massOf_pos hke
    have hne : wsum Stoich.Spec.massOf cp.count ≠ 0 := by
      intro hz
      have hnn := Stoich.Props.count_nonneg cp
      have hall : ∀ x ∈ cp.count.map (fun e => Stoich.Spec.massOf e.1 * e.2), 0 ≤ x := by
        intro x hx
        rw [List.mem_map] at hx
        obtain ⟨y, hy, rfl⟩ := hx
        exact mul_nonneg (Stoich.Props.massOf_pos (v3 _ ((v1 _).1 (List.mem_map_of_mem hy)))).le (hnn y hy)
      cases hl : cp.count.lookup e with
      | none => exact h0 (by simp [Counts.get, hl])
      | some q =>
        have hm : (e, q) ∈ cp.count := lookup_mem hl
        have hq : q ≠ 0 := by intro e0; exact h0 (by simp [Counts.get, hl, e0])
        have hq' : 0 < q := lt_of_le_of_ne (hnn _ hm) (Ne.symm hq)
        have hle : Stoich.Spec.massOf e * q ≤ (cp.count.map (fun e => Stoich.Spec.massOf e.1 * e.2)).sum :=
          Stoich.Props.le_sum_of_mem' hall (List.mem_map.2 ⟨_, hm, rfl⟩)
        have : 0 < Stoich.Spec.massOf e * q := mul_pos hpos hq'
        rw [wsum] at hz
        linarith
    simp [hne]
where
  lookup_mem {l : Counts} {k : Str} {v : ℚ} (h : l.lookup k = some v) : (k, v) ∈ l := by
    induction l with
    | nil => cases h
    | cons a l ih =>
      rw [List.lookup_cons] at h
      by_cases hk : k = a.1
      · subst hk
        simp only [beq_self_eq_true, if_true, Option.some.injEq] at h
        subst h; simp
      · have hb : (k == a.1) = false := by simpa using hk
        rw [hb] at h
        exact List.mem_cons_of_mem _ (ih h)

/-- Over a list containing the elements of a formula the shares sum to one, if the formula has a molar mass. -/
theorem sum_share {c : Str} (h : Stoich.Spec.IsFormula c) {m : ℚ} (hm : Stoich.molarMass c = .ok m) (h0 : m ≠ 0) (E : List Str) (hE : E.Nodup)
    (hs : ∀ t, Stoich.Spec.TreeOK t → Stoich.Spec.text t = c → ∀ e ∈ Stoich.Spec.symbols t, e ∈ E) : (E.map (share c)).sum = 1 := by
  obtain ⟨t, cp, h1, h2, h3, h4, h5⟩ := emf_total h
  obtain ⟨v1, v2, v3, _⟩ := Stoich.visitTree_spec t cp h3
  rw [h4] at hm
  have hm := Except.ok.inj hm
  have e : E.map (share c) = E.map (fun e => (cp.count.get e * Stoich.Spec.massOf e) * (1/m)) := by
    apply List.map_congr_left
    intro e _
    simp only [share, h5 e, hm]; ring
  have s := sum_get Stoich.Spec.massOf E hE cp.count v2 (fun k hk => hs t h1 h2 k ((v1 k).1 hk))
  rw [e, List.sum_map_mul_right, s, hm]
  field_simp

theorem elementLoop_ok {p : Package} (hp : PkgOK p) (elts : List Str) : ∀ (cs : List Str) (acc : List Num),
    (∀ c ∈ cs, c ∈ p.mat.compounds ∧ Stoich.Spec.IsFormula c) → ∃ r, p.elementLoop elts cs acc = .ok r := by
  intro cs
  induction cs with
  | nil => intro acc _; exact ⟨acc, rfl⟩
  | cons c cs ih =>
    intro acc h
    obtain ⟨x, hx, _⟩ := compoundMass_ok hp (h c (by simp)).1
    obtain ⟨t, cp, _, _, _, _, h5⟩ := emf_total (h c (by simp)).2
    have : ∃ fs, Stoich.elementMassFractions c elts = .ok fs := by
      clear ih
      induction elts with
      | nil => exact ⟨[], rfl⟩
      | cons e es ihe =>
        obtain ⟨fs, hfs⟩ := ihe
        simp [Stoich.elementMassFractions, h5 e, hfs]
    obtain ⟨fs, hfs⟩ := this
    simp only [Package.elementLoop, hx, hfs]
    exact ih _ (fun c hc => h c (by simp [hc]))

end Auxi.Chem
