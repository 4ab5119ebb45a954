import Verif.Props.Transport

/-!
# C90, C101, C102: natural convection at an isothermal flat surface
-/
namespace Auxi.Transport.Props
open Auxi.Transport Auxi.Transport.Spec

/-! ### C90: which correlation is used -/

theorem choose_ok {theta ra : ℝ} {e : Equation} : ∀ {l : List (Region × Equation)}, (∀ p ∈ l, p.1.contains theta ra → p.2 = e) →
    (∃ p ∈ l, p.1.contains theta ra) → choose theta ra l = .ok e
  | [], _, ⟨_, hp, _⟩ => absurd hp (by simp)
  | (r, q) :: l, h, hex => by
    by_cases hc : r.contains theta ra
    · have := h (r, q) (by simp) hc
      unfold choose; rw [if_pos hc, ← this]
    · unfold choose; rw [if_neg hc]
      refine choose_ok (fun p hp => h p (List.mem_cons_of_mem _ hp)) ?_
      obtain ⟨p, hp, hpc⟩ := hex
      rcases List.mem_cons.1 hp with rfl | hp
      · exact absurd hpc hc
      · exact ⟨p, hp, hpc⟩

theorem choose_none {theta ra : ℝ} : ∀ {l : List (Region × Equation)}, (∀ p ∈ l, ¬ p.1.contains theta ra) → choose theta ra l = .error .indexError
  | [], _ => rfl
  | (r, q) :: l, h => by
    unfold choose; rw [if_neg (h (r, q) (by simp))]
    exact choose_none fun p hp => h p (List.mem_cons_of_mem _ hp)

theorem contains_region {a b : ℚ} {ai bi ci di : Bool} {c d : Option ℚ} {theta ra : ℝ} : (region a ai b bi c ci d di).contains theta ra ↔
    (if ai then (a : ℝ) ≤ theta else (a : ℝ) < theta) ∧ (if bi then theta ≤ (b : ℝ) else theta < (b : ℝ)) ∧
    (∀ v ∈ c, if ci then (v : ℝ) ≤ ra else (v : ℝ) < ra) ∧ (∀ v ∈ d, if di then ra ≤ (v : ℝ) else ra < (v : ℝ)) := by
  unfold region Region.contains Bound.below Bound.above
  cases c <;> cases d <;> simp

/-- Closes a goal about the membership of a point in the regions of the table. -/
macro "table" : tactic => `(tactic| (
  simp only [regions, List.forall_mem_cons, contains_region, Bool.false_eq_true, if_true, if_false, Option.mem_def, Option.some.injEq, forall_eq',
    reduceCtorEq, false_imp_iff, imp_true_iff, forall_const, List.not_mem_nil]
  push_cast
  refine ⟨?_, ?_, ?_, ?_, ?_, ?_, ?_, ?_, ?_, ?_, ?_, ?_, ?_, ?_, ?_, ?_, ?_, ?_, ?_, ?_, ?_, ?_, trivial⟩ <;>
    first | trivial | (intros; rfl) | (rintro ⟨h1, h2, h3, h4⟩; first | rfl | (exfalso; linarith))))

/-- Shows that a point is in the n-th region. -/
macro "at_region" n:num : tactic => `(tactic| (
  refine ⟨regions[$n]'(by decide), List.getElem_mem _, ?_⟩
  simp only [regions, List.getElem_cons_succ, List.getElem_cons_zero, contains_region, Bool.false_eq_true, if_true, if_false, Option.mem_def,
    Option.some.injEq, forall_eq', reduceCtorEq, false_imp_iff, imp_true_iff, forall_const]
  push_cast
  refine ⟨?_, ?_, ?_, ?_⟩ <;> first | trivial | linarith))

theorem choose_perm {theta ra : ℝ} {e : Equation} {l : List (Region × Equation)} (hl : l.Perm regions)
    (h : ∀ p ∈ regions, p.1.contains theta ra → p.2 = e) (hex : ∃ p ∈ regions, p.1.contains theta ra) : choose theta ra l = .ok e :=
  choose_ok (fun p hp => h p (hl.mem_iff.1 hp)) (by obtain ⟨p, hp, hc⟩ := hex; exact ⟨p, hl.mem_iff.2 hp, hc⟩)

/-- **C90 (from -90 to -52 degrees).** 9.22 up to Ra = 7, 9.23 above, in whatever order the table is searched. -/
theorem C90_up {theta ra : ℝ} (h1 : -90 ≤ theta) (h2 : theta ≤ -52) {l : List (Region × Equation)} (hl : l.Perm regions) :
    choose theta ra l = .ok (if ra ≤ 7 then .eq9_22 else .eq9_23) := by
  by_cases h : ra ≤ 7
  · rw [if_pos h]
    refine choose_perm hl (by table) ?_
    rcases le_or_gt theta (-60) with hh | hh
    · rcases lt_or_ge ra 4 with h4 | h4
      · at_region 0
      · at_region 1
    · at_region 4
  · rw [if_neg h]
    rw [not_le] at h
    refine choose_perm hl (by table) ?_
    rcases le_or_gt theta (-60) with hh | hh
    · rcases le_or_gt ra 11 with h4 | h4
      · at_region 2
      · at_region 3
    · at_region 5

/-- **C90 (between -52 and 0 degrees).** 8.27 (the variant with the corrected gravity), for every Rayleigh number. -/
theorem C90_inclined_up {theta ra : ℝ} (h1 : -52 < theta) (h2 : theta < 0) {l : List (Region × Equation)} (hl : l.Perm regions) :
    choose theta ra l = .ok .eq8_27_g := by
  refine choose_perm hl (by table) ?_
  rcases lt_or_ge theta (-45) with hh | hh
  · rcases le_or_gt ra 7 with h4 | h4
    · at_region 6
    · at_region 7
  · rcases lt_or_ge ra 5 with h4 | h4
    · at_region 8
    · rcases le_or_gt ra 9 with h5 | h5
      · at_region 9
      · at_region 10

/-- **C90 (between 0 and 88 degrees).** 8.27, for every Rayleigh number. -/
theorem C90_inclined_down {theta ra : ℝ} (h1 : 0 < theta) (h2 : theta < 88) {l : List (Region × Equation)} (hl : l.Perm regions) :
    choose theta ra l = .ok .eq8_27 := by
  refine choose_perm hl (by table) ?_
  rcases lt_or_ge ra 5 with h4 | h4
  · at_region 14
  · rcases le_or_gt ra 11 with h5 | h5
    · at_region 15
    · at_region 16

/-- **C90 (88 to 90 degrees).** 8.38, for every Rayleigh number, except below 6 at exactly 88 degrees. -/
theorem C90_down {theta ra : ℝ} (h1 : 88 ≤ theta) (h2 : theta ≤ 90) (h3 : ¬ (theta = 88 ∧ ra < 6)) {l : List (Region × Equation)}
    (hl : l.Perm regions) : choose theta ra l = .ok .eq8_38 := by
  refine choose_perm hl (by table) ?_
  rcases lt_or_ge ra 6 with h4 | h4
  · have h5 : 88 < theta := lt_of_le_of_ne h1 fun h => h3 ⟨h.symm, h4⟩
    at_region 17
  · rcases le_or_gt ra 9 with h5 | h5
    · at_region 18
    · rcases lt_or_ge theta 89 with h6 | h6
      · at_region 19
      · rcases le_or_gt ra 11 with h7 | h7
        · at_region 20
        · at_region 21

/-- **C90 (vertical surface).** 8.26 for every Rayleigh number other than 11: the table is searched in the order it was filled. -/
theorem C90_vertical {ra : ℝ} (h : ra ≠ 11) : choose 0 ra regions = .ok .eq8_26 := by
  have app : ∀ (l m : List (Region × Equation)) {e}, choose 0 ra l = .ok e → choose 0 ra (l ++ m) = .ok e := by
    intro l
    induction l with
    | nil => intro m e h; cases h
    | cons a l ih =>
      obtain ⟨r, q⟩ := a
      intro m e he
      rw [List.cons_append]
      unfold choose at he ⊢
      by_cases hc : r.contains 0 ra
      · rw [if_pos hc] at he ⊢; exact he
      · rw [if_neg hc] at he ⊢; exact ih m he
  have e : regions = regions.take 14 ++ regions.drop 14 := (List.take_append_drop 14 regions).symm
  rw [e]
  refine app _ _ (choose_ok ?_ ?_)
  · simp only [regions, List.take_succ_cons, List.take_zero, List.forall_mem_cons, contains_region, Bool.false_eq_true, if_true, if_false, Option.mem_def,
      Option.some.injEq, forall_eq', reduceCtorEq, false_imp_iff, imp_true_iff, forall_const, List.not_mem_nil]
    push_cast
    refine ⟨?_, ?_, ?_, ?_, ?_, ?_, ?_, ?_, ?_, ?_, ?_, ?_, ?_, ?_, trivial⟩ <;>
      first | trivial | (intros; rfl) | (rintro ⟨h1, h2, h3, h4⟩; first | rfl | (exfalso; linarith))
  · rcases le_or_gt ra 5 with h4 | h4
    · refine ⟨(region 0 true 0 true none false (some 5) true, .eq8_26), by simp [regions], contains_region.2 ?_⟩
      simpa using h4
    · rcases lt_or_gt_of_ne h with h5 | h5
      · refine ⟨(region 0 true 0 true (some 5) false (some 11) false, .eq8_26), by simp [regions], contains_region.2 ?_⟩
        simpa using ⟨h4, h5⟩
      · refine ⟨(region 0 true 0 true (some 11) false none false, .eq8_26), by simp [regions], contains_region.2 ?_⟩
        simpa using h5

/-- **C90 is false of the code at three places**: a vertical surface with a Rayleigh number of exactly 11 gets the correlation of an inclined one; a surface at 88
degrees with a Rayleigh number below 6 gets none (`IndexError`); and where entries of the table overlap (vertical, Rayleigh number between 5 and 11) the
result depends on the order in which a dictionary lists its keys. -/
theorem C90_violated : choose 0 11 regions = .ok .eq8_27 ∧ (∀ ra < 6, choose 88 ra regions = .error .indexError) ∧
    (∀ ra, 5 ≤ ra → ra ≤ 11 → ∃ l, l.Perm regions ∧ choose 0 ra l = .ok .eq8_27) := by
  refine ⟨?_, ?_, ?_⟩
  · refine choose_perm (List.Perm.refl _) (by table) ?_
    at_region 15
  · intro ra hra
    refine choose_none ?_
    simp only [regions, List.forall_mem_cons, contains_region, Bool.false_eq_true, if_true, if_false, Option.mem_def, Option.some.injEq, forall_eq',
      reduceCtorEq, false_imp_iff, imp_true_iff, forall_const, List.not_mem_nil]
    push_cast
    refine ⟨?_, ?_, ?_, ?_, ?_, ?_, ?_, ?_, ?_, ?_, ?_, ?_, ?_, ?_, ?_, ?_, ?_, ?_, ?_, ?_, ?_, ?_, trivial⟩ <;>
      (rintro ⟨h1, h2, h3, h4⟩; linarith)
  · intro ra h5 h11
    refine ⟨regions.reverse, List.reverse_perm _, ?_⟩
    have e : regions.reverse = (regions.drop 14).reverse ++ (regions.take 14).reverse := by
      rw [← List.reverse_append, List.take_append_drop]
    have app : ∀ (l m : List (Region × Equation)) {e}, choose 0 ra l = .ok e → choose 0 ra (l ++ m) = .ok e := by
      intro l
      induction l with
      | nil => intro m e h; cases h
      | cons a l ih =>
        obtain ⟨r, q⟩ := a
        intro m e he
        rw [List.cons_append]
        unfold choose at he ⊢
        by_cases hc : r.contains 0 ra
        · rw [if_pos hc] at he ⊢; exact he
        · rw [if_neg hc] at he ⊢; exact ih m he
    rw [e]
    refine app _ _ (choose_ok (fun p hp => ?_) ?_)
    · rw [List.mem_reverse] at hp
      revert p
      simp only [regions, List.drop_succ_cons, List.drop_zero, List.forall_mem_cons, contains_region, Bool.false_eq_true, if_true, if_false, Option.mem_def,
        Option.some.injEq, forall_eq', reduceCtorEq, false_imp_iff, imp_true_iff, forall_const, List.not_mem_nil]
      push_cast
      refine ⟨?_, ?_, ?_, ?_, ?_, ?_, ?_, ?_, trivial⟩ <;>
        first | trivial | (intros; rfl) | (rintro ⟨h1, h2, h3, h4⟩; first | rfl | (exfalso; linarith))
    · refine ⟨(region 0 true 88 false (some 5) true (some 11) true, .eq8_27), by simp [regions], contains_region.2 ?_⟩
      simpa using ⟨h5, h11⟩

/-- **C90 (impossible angles).** An angle outside [-90, 90] is refused with an `IndexError`. -/
theorem C90_outside {theta ra : ℝ} (h : ¬ Angle theta) {l : List (Region × Equation)} (hl : l.Perm regions) :
    choose theta ra l = .error .indexError := by
  refine choose_none fun p hp => ?_
  have hp := hl.mem_iff.1 hp
  have h' : theta < -90 ∨ 90 < theta := by
    unfold Angle at h; by_contra hc; rw [not_or, not_lt, not_lt] at hc; exact h hc
  revert p
  have key : ∀ p ∈ regions, ¬ p.1.contains theta ra := by
    simp only [regions, List.forall_mem_cons, contains_region, Bool.false_eq_true, if_true, if_false, Option.mem_def, Option.some.injEq, forall_eq',
      reduceCtorEq, false_imp_iff, imp_true_iff, forall_const, List.not_mem_nil]
    push_cast
    refine ⟨?_, ?_, ?_, ?_, ?_, ?_, ?_, ?_, ?_, ?_, ?_, ?_, ?_, ?_, ?_, ?_, ?_, ?_, ?_, ?_, ?_, ?_, trivial⟩ <;>
      (rintro ⟨h1, h2, h3, h4⟩; rcases h' with h' | h' <;> linarith)
  exact fun p _ hp => key p hp

/-- Every angle a surface can have is covered: some correlation is used unless the angle is 88 degrees and the Rayleigh number below 6. -/
theorem C90_total {theta ra : ℝ} (h : Angle theta) (h88 : ¬ (theta = 88 ∧ ra < 6)) : ∃ q, choose theta ra regions = .ok q := by
  have r := List.Perm.refl regions
  rcases le_or_gt theta (-52) with h1 | h1
  · exact ⟨_, C90_up h.1 h1 r⟩
  rcases lt_trichotomy theta 0 with h2 | h2 | h2
  · exact ⟨_, C90_inclined_up h1 h2 r⟩
  · subst h2
    by_cases h11 : ra = 11
    · subst h11; exact ⟨_, C90_violated.1⟩
    · exact ⟨_, C90_vertical h11⟩
  rcases lt_or_ge theta 88 with h3 | h3
  · exact ⟨_, C90_inclined_down h2 h3 r⟩
  · exact ⟨_, C90_down h3 h.2 h88 r⟩

end Auxi.Transport.Props
