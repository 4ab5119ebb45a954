import Verif.Props.Independence
import Verif.Spec.TimeShift

/-! # C157: the same plan in another calendar -/
namespace Auxi.Business.Props
open Auxi.Business Auxi.Business.Spec Time Calendar

theorem find?_congr {α : Type} {p q : α → Bool} : ∀ {l : List α}, (∀ x ∈ l, p x = q x) → l.find? p = l.find? q
  | [], _ => rfl
  | a :: l, h => by
    rw [List.find?_cons, List.find?_cons, h a (by simp), find?_congr (fun x hx => h x (by simp [hx]))]

theorem firstAfter_same {c c' : Clock} {n : Nat} {t t' : Int} (h : ∀ i : Nat, i < n → (t < c.atIx i ↔ t' < c'.atIx i)) : firstAfter c t n = firstAfter c' t' n := by
  unfold firstAfter
  apply find?_congr
  intro i hi
  have := h i (List.mem_range.1 hi)
  simpa using this

theorem prep_same {c c' : Clock} {n : Nat} {a a' : Activity} (h : SamePlan c c' n a a') :
    a'.prepare c' n = { a.prepare c n with start := a'.start, stop := a'.stop } := by
  obtain ⟨h1, h2, h3, h4, h5⟩ := h
  have f1 : a.start ≠ dtMin → firstAfter c a.start n = firstAfter c' a'.start n := fun hh => firstAfter_same (h4 hh)
  have f2 : a.stop ≠ dtMax → firstAfter c a.stop n = firstAfter c' a'.stop n := fun hh => firstAfter_same (h5 hh)
  have e1 : a'.startIx = a.startIx := by rw [h1]
  have e2 : a'.periodCount = a.periodCount := by rw [h1]
  have s1 : a'.prepStart c' n = a.prepStart c n := by
    unfold Activity.prepStart
    by_cases hh : a.start = dtMin
    · simp only [e1, ne_eq, ← h2, hh, not_true_eq_false, and_false, if_false]
    · simp only [e1, ne_eq, ← h2, f1 hh]
  have s2 : a'.prepCount c' n = a.prepCount c n := by
    unfold Activity.prepCount
    by_cases hh : a.stop = dtMax
    · simp only [e2, ne_eq, ← h3, hh, not_true_eq_false, and_false, if_false]
    · simp only [e2, ne_eq, ← h3, f2 hh, s1]
  have s3 : a'.prepEnd c' n = a.prepEnd c n := by
    unfold Activity.prepEnd; simp only [s1, s2]
  unfold Activity.prepare
  rw [s1, s2, s3]
  conv_lhs => rw [h1]

theorem due_dates {a : Activity} {s t : Int} (i : Nat) : Due { a with start := s, stop := t } i ↔ Due a i := Iff.rfl

theorem txsAt_same {c c' : Clock} {f : Int → Int} (i : Nat) (hf : f (c.atIx i) = c'.atIx i) (a : Activity) (s t : Int) :
    txsAt c' { a with start := s, stop := t } i = (txsAt c a i).map (redate f) := by
  have he : execsBefore { a with start := s, stop := t } i = execsBefore a i := rfl
  unfold txsAt
  simp only [due_dates]
  by_cases hd : Due a i
  · rw [if_pos hd, if_pos hd, he]
    cases a.kind with
    | basic amount dt cr => simp [redate, hf]
    | loan bank loan interest amount rate payment duration months left =>
      dsimp only
      cases execsBefore a i <;> simp [redate, hf]
  · rw [if_neg hd, if_neg hd]; rfl

theorem expected_same {c c' : Clock} {n : Nat} {f : Int → Int} (hf : ∀ i : Nat, i < n → f (c.atIx i) = c'.atIx i) {as as' : List Activity}
    (h : List.Forall₂ (fun a a' => a' = { a with start := a'.start, stop := a'.stop }) as as') : expected c' n as' = (expected c n as).map (redate f) := by
  unfold expected
  rw [List.map_flatMap]
  apply List.flatMap_congr
  intro i hi
  have hi' := hf i (List.mem_range.1 hi)
  induction h with
  | nil => rfl
  | cons h1 _ ih =>
    rw [List.flatMap_cons, List.flatMap_cons, List.map_append, ih, h1, txsAt_same i hi']

/-- **C157.** Two entities with the same plan in two calendars (other start date, other unit or number of units of the clock) post the same transactions, each on the date of its period in the respective calendar. -/
theorem C157_calendar (m m1 : Model) (e e1 e' e1' : Entity) (h : RunOf m e e') (h1 : RunOf m1 e1 e1') (hn : m1.periodCount = m.periodCount)
    (hl : ∀ x ∈ [m, m1], ∀ e ∈ x.entities, LoansOk (activitiesOfList e.components))
    (hp : List.Forall₂ (SamePlan m.clock m1.clock m.periodCount) (activitiesOfList e.components) (activitiesOfList e1.components))
    (f : Int → Int) (hf : ∀ i : Nat, i < m.periodCount → f (m.clock.atIx i) = m1.clock.atIx i) :
    posted e1'.transactions = (posted e'.transactions).map (redate f) := by
  rw [posted_of_run h (hl m (by simp)), posted_of_run h1 (hl m1 (by simp)), hn]
  apply expected_same hf
  rw [List.forall₂_map_left_iff, List.forall₂_map_right_iff]
  refine hp.imp ?_
  intro a a' ha
  have hr : SamePlan m.clock.reset m1.clock.reset m.periodCount a a' := ha
  have := prep_same hr
  rw [this]

/-- **C157.** A model that starts `d` later, in periods of a fixed length, and all of whose activities start and end `d` later, posts the same transactions `d` later. -/
theorem C157_later (m m1 : Model) (e e1 e' e1' : Entity) (d : Int) (h : RunOf m e e') (h1 : RunOf m1 e1 e1') (hn : m1.periodCount = m.periodCount)
    (hl : ∀ x ∈ [m, m1], ∀ e ∈ x.entities, LoansOk (activitiesOfList e.components))
    (hd : m.clock.duration ≠ .month ∧ m.clock.duration ≠ .year) (hc : m1.clock.duration = m.clock.duration ∧ m1.clock.start = m.clock.start + d)
    (ha : activitiesOfList e1.components = (activitiesOfList e.components).map (Activity.later d))
    (ho : ∀ a ∈ activitiesOfList e.components, (a.start ≠ dtMin → a.start + d ≠ dtMin) ∧ (a.stop ≠ dtMax → a.stop + d ≠ dtMax)) :
    posted e1'.transactions = (posted e'.transactions).map (redate (· + d)) := by
  have hat : ∀ i : Nat, m1.clock.atIx i = m.clock.atIx i + d := by
    intro i
    unfold Clock.atIx
    rw [hc.1, hc.2]
    cases hu : m.clock.duration with
    | month => exact absurd hu hd.1
    | year => exact absurd hu hd.2
    | _ => dsimp only; ring
  refine C157_calendar m m1 e e1 e' e1' h h1 hn hl ?_ _ (fun i _ => (hat i).symm)
  rw [ha, List.forall₂_map_right_iff, List.forall₂_same]
  intro a hm
  obtain ⟨o1, o2⟩ := ho a hm
  refine ⟨rfl, ?_, ?_, ?_, ?_⟩
  · unfold Activity.later moved
    dsimp only
    split
    · next hh => simp [hh]
    · next hh => exact ⟨fun x => absurd x hh, fun x => absurd x (o1 hh)⟩
  · unfold Activity.later moved
    dsimp only
    split
    · next hh => simp [hh]
    · next hh => exact ⟨fun x => absurd x hh, fun x => absurd x (o2 hh)⟩
  · intro hh i hi
    have hi' := hat i
    unfold Activity.later moved
    dsimp only
    rw [if_neg hh]
    omega
  · intro hh i hi
    have hi' := hat i
    unfold Activity.later moved
    dsimp only
    rw [if_neg hh]
    omega

/-! ## Cases -/

/-- an activity from 3 to 10 January 2017 -/
def actJan : Activity := newBasic "M".toList "Bank/Default".toList "Sales/Ore".toList 5 (mkDateTime 2017 1 3 0) (mkDateTime 2017 1 10 0) 2 none
/-- `n` days from the first of January, or some days later -/
def daysFrom (a : Activity) (s : Int) (n : Nat) : Model := ⟨"M".toList, Clock.new s .day 1, n, [entOf a]⟩

/-- the ledgers of the first entity of two models, and that they have transactions -/
theorem runOf_some {m : Model} {e : Entity} (h0 : m.entities = [e]) (k : Nat) (h : m.run.map (fun m => m.entities.map (fun e => (posted e.transactions).length)) = .ok [k]) :
    ∃ e', RunOf m e e' ∧ (posted e'.transactions).length = k := by
  have hok : m.run.isOk = true := by
    cases hr : m.run with
    | error x => rw [hr] at h; cases h
    | ok m' => rfl
  obtain ⟨e', he'⟩ := runOf_ok (i := 0) hok (by rw [h0]; rfl)
  refine ⟨e', he', ?_⟩
  obtain ⟨m', i, h1, h2, h3⟩ := he'
  rw [h1] at h
  have hd : m'.entities.map (fun e => (posted e.transactions).length) = [k] := by simpa [Except.map] using h
  have := List.getElem?_map (f := fun e : Entity => (posted e.transactions).length) (l := m'.entities) (i := i)
  rw [hd, h3] at this
  rcases i with _ | i <;> simp at this
  exact this.symm

theorem loans_one (a : Activity) (m : Model) (h : m.entities = [entOf a]) (hi : a.interval ≠ 0) : ∀ e ∈ m.entities, LoansOk (activitiesOfList e.components) := by
  intro e he
  rw [h] at he
  have he := List.mem_singleton.1 he
  subst he
  apply loansOk_of
  intro x hx
  have hx' : activitiesOfList (entOf a).components = [a.setParentPath "/C".toList] := rfl
  rw [hx', List.mem_singleton] at hx
  rw [hx]; exact hi

/-- a hundred days later -/
example : ∃ e' e1' : Entity, posted e1'.transactions = (posted e'.transactions).map (redate (· + 100 * dayUs)) ∧ (posted e'.transactions).length = 3 := by
  obtain ⟨a, ha, hl⟩ := runOf_some (m := daysFrom actJan (mkDateTime 2017 1 1 0) 20) rfl 3 (by decide +kernel)
  obtain ⟨b, hb, -⟩ := runOf_some (m := daysFrom (Activity.later (100 * dayUs) actJan) (mkDateTime 2017 1 1 0 + 100 * dayUs) 20) rfl 3 (by decide +kernel)
  refine ⟨a, b, C157_later (daysFrom actJan (mkDateTime 2017 1 1 0) 20) (daysFrom (Activity.later (100 * dayUs) actJan) (mkDateTime 2017 1 1 0 + 100 * dayUs) 20) _ _ a b (100 * dayUs) ha hb rfl ?_ (by decide) ⟨rfl, rfl⟩ rfl ?_, hl⟩
  · intro x hx
    simp only [List.mem_cons, List.not_mem_nil, or_false] at hx
    rcases hx with rfl | rfl
    · exact loans_one actJan _ rfl (by decide)
    · exact loans_one (Activity.later (100 * dayUs) actJan) _ rfl (by decide)
  · intro x hx
    have hx' : activitiesOfList (entOf actJan).components = [actJan.setParentPath "/C".toList] := rfl
    rw [hx', List.mem_singleton] at hx
    subst hx
    decide +kernel

/-- seven days and seven months of the same plan -/
example : ∃ (e' e1' : Entity) (f : Int → Int), posted e1'.transactions = (posted e'.transactions).map (redate f) ∧ (posted e'.transactions).length = 3 ∧ f (mkDateTime 2017 1 2 0) = mkDateTime 2017 2 1 0 := by
  obtain ⟨a, ha, hl⟩ := runOf_some (m := daysFrom act2 (mkDateTime 2017 1 1 0) 7) rfl 3 (by decide +kernel)
  obtain ⟨b, hb, -⟩ := runOf_some (m := months act2 7) rfl 3 (by decide +kernel)
  refine ⟨a, b, fun t => (List.range 7).foldr (fun i acc => if (Clock.new (mkDateTime 2017 1 1 0) .day 1).atIx i = t then (Clock.new (mkDateTime 2017 1 1 0) .month 1).atIx i else acc) 0,
    C157_calendar (daysFrom act2 (mkDateTime 2017 1 1 0) 7) (months act2 7) _ _ a b ha hb rfl ?_ ?_ _ ?_, hl, by decide +kernel⟩
  · intro x hx
    simp only [List.mem_cons, List.not_mem_nil, or_false] at hx
    rcases hx with rfl | rfl
    · exact loans_one act2 _ rfl (by decide)
    · exact loans_one act2 _ rfl (by decide)
  · have hx' : activitiesOfList (entOf act2).components = [act2.setParentPath "/C".toList] := rfl
    rw [hx']
    refine .cons ⟨rfl, Iff.rfl, Iff.rfl, fun h => absurd rfl h, fun h => absurd rfl h⟩ .nil
  · have : ∀ i : Nat, i < 7 → (List.range 7).foldr (fun (j : Nat) acc => if (Clock.new (mkDateTime 2017 1 1 0) .day 1).atIx j = (Clock.new (mkDateTime 2017 1 1 0) .day 1).atIx i then (Clock.new (mkDateTime 2017 1 1 0) .month 1).atIx j else acc) 0 = (Clock.new (mkDateTime 2017 1 1 0) .month 1).atIx i := by decide +kernel
    exact this

/-- **C157 (violated).** In months it is not so: what is started a day later is not posted a day later, and may even be posted on the same day. -/
theorem C157_months_violated : ∃ m m1 : Model, m1.clock = { m.clock with start := m.clock.start + dayUs } ∧ m1.entities = m.entities ∧ (∀ e ∈ m.entities, ∀ a ∈ activitiesOfList e.components, Activity.later dayUs a = a) ∧
    postings m = .ok [[(mkDateTime 2017 1 30 0, 5), (mkDateTime 2017 2 28 0, 5)]] ∧ postings m1 = .ok [[(mkDateTime 2017 1 31 0, 5), (mkDateTime 2017 2 28 0, 5)]] := by
  refine ⟨⟨"M".toList, Clock.new (mkDateTime 2017 1 30 0) .month 1, 2, [entOf actM]⟩, ⟨"M".toList, Clock.new (mkDateTime 2017 1 30 0 + dayUs) .month 1, 2, [entOf actM]⟩, rfl, rfl, ?_, by decide +kernel, by decide +kernel⟩
  intro e he a ha
  have he := List.mem_singleton.1 he
  subst he
  have hx' : activitiesOfList (entOf actM).components = [actM.setParentPath "/C".toList] := rfl
  rw [hx', List.mem_singleton] at ha
  subst ha
  rfl

end Auxi.Business.Props
