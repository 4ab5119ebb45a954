import Verif.Proofs.RunState
import Verif.Proofs.Calendar
/-! # Lemmas about the dates of a run -/
namespace Auxi.RunState
open Business Time Calendar Ledger Business.Spec

theorem year_le {s t : Int} (h : s ≤ t) : year s ≤ year t := by
  have h1 := yearOfDay_spec (s / dayUs)
  have h2 := yearOfDay_spec (t / dayUs)
  have hd : s / dayUs ≤ t / dayUs := Int.ediv_le_ediv (by unfold dayUs; omega) h
  unfold year
  by_contra hc
  have := year_mono (a := yearOfDay (t / dayUs)) (b := yearOfDay (s / dayUs)) (by omega)
  omega

theorem le_dtMax_of_year {t : Int} (h : year t ≤ 9999) : t ≤ dtMax := by
  have h1 := yearOfDay_spec (t / dayUs)
  have hy : yearOfDay (t / dayUs) = year t := rfl
  rw [hy] at h1
  have h2 : daysBeforeYear (year t + 1) ≤ daysBeforeYear 10000 := by
    by_cases e : year t = 9999
    · rw [e]; decide
    · have := year_mono (a := year t) (b := 10000) (by omega); exact this
  have h3 : daysBeforeYear 10000 = 3652059 := by decide
  have h4 : dtMax = 3652059 * 86400000000 - 1 := by decide
  have h5 : t / dayUs < 3652059 := by omega
  rw [h4]; unfold dayUs at h5; omega

theorem year_addYears (t : Int) : year (addYears t 1) = year t + 1 := (fields_mk (addYears_valid t 1)).1

/-- A year later is at least a day later. -/
theorem addYears_day (t : Int) : t + dayUs ≤ addYears t 1 := by
  have h1 : t < addYears t 1 := by
    rw [addYears_eq]
    have := addMonths_strictMono t (j := 0) (k := 12 * 1) (by omega)
    rwa [addMonths_zero] at this
  have h2 : addYears t 1 % dayUs = t % dayUs := (fields_mk (addYears_valid t 1)).2.2.2
  unfold dayUs at *
  omega

/-- The run starts in the calendar and its horizon lies before the year 9999. -/
structure Early (clk : Clock) (n : Nat) : Prop where
  first : dtMin ≤ clk.start
  last : year (clk.atIx n) ≤ 9998

theorem atIx_zero (clk : Clock) : clk.atIx 0 = clk.start := by
  unfold Clock.atIx
  cases clk.duration <;> simp [addMonths_zero, addYears_eq]

theorem Early.start_le {clk : Clock} {n : Nat} (i : Nat) : clk.start ≤ clk.atIx i := by
  rw [← atIx_zero clk]; exact atIx_le clk (by omega)

theorem Early.inCal {clk : Clock} {n : Nat} (h : Early clk n) {t : Int} (h1 : clk.start ≤ t) (h2 : year t ≤ 9999) :
    inCalendar t = true := (inCalendar_iff t).2 ⟨Int.le_trans h.first h1, le_dtMax_of_year h2⟩

theorem Early.dated {clk : Clock} {n : Nat} (h : Early clk n) : Dated clk n := by
  intro i hi
  refine h.inCal (Early.start_le (n := n) i) ?_
  have := year_le (atIx_le clk (i := i) (j := n) (by omega))
  have := h.last
  omega

theorem Early.plus {clk : Clock} {n : Nat} (h : Early clk n) : inCalendar (addYears clk.start 1) = true := by
  refine h.inCal ?_ ?_
  · have := addYears_day clk.start; unfold dayUs at this; omega
  · rw [year_addYears]
    have := year_le (Early.start_le (clk := clk) (n := n) n)
    have := h.last
    omega

/-- What is known of an entity during a run of `n` periods. -/
structure Running (clk : Clock) (n : Nat) (e : Entity) : Prop where
  count : e.periodCount = n
  horizon : e.execYearEnd = clk.atIx n
  closes : addYears clk.start 1 ≤ e.currYearEnd
  dates : ∀ t ∈ e.transactions, clk.start ≤ t.date ∧ t.date < clk.atIx n

theorem prepareEntity_running {clk : Clock} {n : Nat} (h : Early clk n) (e : Entity) : Running clk n (prepareEntity clk n e).val := by
  rw [prepareEntity_ok (prepareEntity_dated h.dated h.plus e)]
  exact ⟨rfl, rfl, Int.le_refl _, by intro t ht; simp [Entity.prepare] at ht⟩

/-- Everything an activity posts is dated now and is not a closing transaction. -/
theorem activity_run_txs (clk : Clock) (a : Activity) : ∀ t ∈ (a.run clk).2, t.date = clk.now ∧ t.closingCr = false ∧ t.closingDt = false := by
  intro t ht
  unfold Activity.run at ht
  split at ht
  · simp at ht
  · split at ht
    · simp at ht; subst ht; exact ⟨rfl, rfl, rfl⟩
    · split at ht
      · simp at ht; subst ht; exact ⟨rfl, rfl, rfl⟩
      · simp at ht; rcases ht with rfl | rfl <;> exact ⟨rfl, rfl, rfl⟩

theorem runActivities_txs (clk : Clock) : ∀ (as : List Activity), ∀ t ∈ (runActivities clk as).val.2,
    t.date = clk.now ∧ t.closingCr = false ∧ t.closingDt = false
  | [] => by intro t ht; simp [runActivities] at ht
  | a :: as => by
    have ih := runActivities_txs clk as
    have ha : ∀ t ∈ (runActivity clk a).val.2, t.date = clk.now ∧ t.closingCr = false ∧ t.closingDt = false := by
      unfold runActivity
      split
      · simp
      · split
        · simp
        · exact activity_run_txs clk a
    intro t ht
    cases hr : runActivity clk a with
    | mk r o =>
      rw [hr] at ha
      cases o with
      | some e => simp only [runActivities, hr] at ht; exact ha t ht
      | none =>
        simp only [runActivities, hr, List.mem_append] at ht
        rcases ht with ht | ht
        · exact ha t ht
        · exact ih t ht

mutual
theorem runComponent_txs (clk : Clock) : ∀ (c : Component), ∀ t ∈ (runComponent clk c).val.2,
    t.date = clk.now ∧ t.closingCr = false ∧ t.closingDt = false
  | ⟨nm, d, pp, p, cs, as⟩ => by
    have ih := runComponents_txs clk cs
    intro t ht
    cases hr : runComponents clk cs with
    | mk r o =>
      rw [hr] at ih
      cases o with
      | some e => simp only [runComponent, hr] at ht; exact ih t ht
      | none =>
        simp only [runComponent, hr, List.mem_append] at ht
        rcases ht with ht | ht
        · exact ih t ht
        · exact runActivities_txs clk as t ht
theorem runComponents_txs (clk : Clock) : ∀ (cs : List Component), ∀ t ∈ (runComponents clk cs).val.2,
    t.date = clk.now ∧ t.closingCr = false ∧ t.closingDt = false
  | [] => by intro t ht; simp [runComponents] at ht
  | c :: cs => by
    have ihc := runComponent_txs clk c
    have ih := runComponents_txs clk cs
    intro t ht
    cases hr : runComponent clk c with
    | mk r o =>
      rw [hr] at ihc
      cases o with
      | some e => simp only [runComponents, hr] at ht; exact ihc t ht
      | none =>
        simp only [runComponents, hr, List.mem_append] at ht
        rcases ht with ht | ht
        · exact ihc t ht
        · exact ih t ht
end

/-- Inside the calendar the detailed year end procedure is the one of `Verif.Business`, and keeps what is known. -/
theorem yearEnd_early {clk : Clock} {n i : Nat} (h : Early clk n) (hi : i < n) {e : Entity} (hr : Running clk n e) :
    Running clk n (yearEnd (clockAt clk i) e).val ∧
    ∀ err, (yearEnd (clockAt clk i) e).err = some err → e.yearEnd (clockAt clk i) = .error err := by
  have hnow : (clockAt clk i).atIx i = clk.atIx i := rfl
  have hlt : clk.atIx i < clk.atIx n := atIx_strict clk (by omega)
  unfold yearEnd Entity.yearEnd
  have e0 : dateAt (clockAt clk i) ((clockAt clk i).ix : Nat) = .ok (clk.atIx i) := dateAt_in (h.dated i (by omega))
  rw [e0]
  dsimp only
  have en : (clockAt clk i).now = clk.atIx i := rfl
  rw [en]
  split
  · rename_i hc
    have hc' : e.currYearEnd ≤ clk.atIx i := by
      rcases hc with hc | hc
      · exact hc
      · rw [hr.count] at hc
        have : i = n := by exact_mod_cast hc
        omega
    have hd := addYears_day clk.start
    have hcl := hr.closes
    have hy : year e.currYearEnd ≤ 9998 := Int.le_trans (year_le (Int.le_of_lt (Int.lt_of_le_of_lt hc' hlt))) h.last
    have e1 : minusSecond e.currYearEnd = .ok (e.currYearEnd - 1000000) := by
      unfold minusSecond
      rw [if_pos]
      refine h.inCal ?_ ?_
      · unfold dayUs at hd; omega
      · have := year_le (s := e.currYearEnd - 1000000) (t := e.currYearEnd) (by omega); omega
    have e2 : plusYear e.currYearEnd = .ok (addYears e.currYearEnd 1) := by
      unfold plusYear
      rw [if_pos]
      refine h.inCal ?_ ?_
      · have := addYears_day e.currYearEnd; unfold dayUs at hd this; omega
      · rw [year_addYears]; omega
    rw [e1]; dsimp only
    rw [e2]; dsimp only
    have hadv : addYears clk.start 1 ≤ e.advance.currYearEnd := by
      unfold Entity.advance
      dsimp only
      rw [hr.horizon]
      split
      · omega
      · have := addYears_day e.currYearEnd; unfold dayUs at this; omega
    cases hw : classifyAll e.chart ⟨[], []⟩ e.yearTxs with
    | error err =>
      refine ⟨⟨hr.count, hr.horizon, hadv, hr.dates⟩, ?_⟩
      intro err' he; simp only [Option.some.injEq] at he; rw [he]
    | ok w =>
      refine ⟨⟨hr.count, hr.horizon, hadv, ?_⟩, ?_⟩
      · intro t ht
        simp only [List.mem_append] at ht
        rcases ht with ht | ht
        · exact hr.dates t ht
        · rw [(closingTxs_closing _ _ _ _ t ht).2.1]
          unfold dayUs at hd
          omega
      · intro err he; simp at he
  · exact ⟨hr, by intro err he; simp at he⟩

theorem runEntity_early {clk : Clock} {n i : Nat} (h : Early clk n) (hi : i < n) {e : Entity} (hr : Running clk n e) :
    Running clk n (runEntity (clockAt clk i) e).val ∧
    ∀ err, (runEntity (clockAt clk i) e).err = some err → e.run (clockAt clk i) = .error err := by
  have hd : inCalendar (clockAt clk i).now = true := h.dated i (by omega)
  have hnone := runComponents_dated hd e.components
  unfold runEntity Entity.run
  have hix : ((clockAt clk i).ix : Int) = i := rfl
  split
  · exact ⟨hr, by intro err he; simp at he⟩
  · dsimp only
    rw [hnone]; dsimp only
    have hr' : Running clk n
        { e with components := (runComponents (clockAt clk i) e.components).val.1
                 transactions := e.transactions ++ (runComponents (clockAt clk i) e.components).val.2 } := by
      refine ⟨hr.count, hr.horizon, hr.closes, ?_⟩
      intro t ht
      simp only [List.mem_append] at ht
      rcases ht with ht | ht
      · exact hr.dates t ht
      · rw [(runComponents_txs _ _ t ht).1]
        exact ⟨Early.start_le (n := n) i, atIx_strict clk (by omega)⟩
    obtain ⟨g1, g2⟩ := yearEnd_early h hi hr'
    rw [runComponents_ok _ _ hnone] at g1 g2 ⊢
    exact ⟨g1, g2⟩

theorem runEntities_early {clk : Clock} {n i : Nat} (h : Early clk n) (hi : i < n) : ∀ {es : List Entity},
    (∀ e ∈ es, Running clk n e) → (∀ e ∈ (each (runEntity (clockAt clk i)) es).val, Running clk n e) ∧
    ∀ err, (each (runEntity (clockAt clk i)) es).err = some err → runEntities (clockAt clk i) es = .error err := by
  intro es
  induction es with
  | nil => intro _; exact ⟨by intro e he; simp [each] at he, by intro err he; simp [each] at he⟩
  | cons e es ih =>
    intro hr
    obtain ⟨g1, g2⟩ := runEntity_early h hi (hr e (by simp))
    obtain ⟨i1, i2⟩ := ih (fun x hx => hr x (by simp [hx]))
    have hok := runEntity_ok (clk := clockAt clk i) (e := e)
    cases hx : runEntity (clockAt clk i) e with
    | mk e' o =>
      rw [hx] at g1 g2 hok
      cases o with
      | some err =>
        simp only [each, hx]
        refine ⟨?_, ?_⟩
        · intro x hxm; simp only [List.mem_cons] at hxm
          rcases hxm with rfl | hxm
          · exact g1
          · exact hr x (by simp [hxm])
        · intro err' he; simp only [Option.some.injEq] at he; subst he
          simp only [runEntities, g2 _ rfl]
      | none =>
        simp only [each, hx]
        refine ⟨?_, ?_⟩
        · intro x hxm; simp only [List.mem_cons] at hxm
          rcases hxm with rfl | hxm
          · exact g1
          · exact i1 x hxm
        · intro err' he
          simp only [runEntities, hok rfl, i2 _ he]

theorem runLoop_early {clk : Clock} {n : Nat} (h : Early clk n) (k : Nat) : ∀ (i : Nat), i + k ≤ n → ∀ {es : List Entity},
    (∀ e ∈ es, Running clk n e) → (∀ e ∈ (runLoop k (clockAt clk i) es).val.2, Running clk n e) ∧
    ∀ err, (runLoop k (clockAt clk i) es).err = some err → loop k (clockAt clk i) es = .error err := by
  induction k with
  | zero => intro i _ es hr; exact ⟨hr, by intro err he; simp [runLoop] at he⟩
  | succ k ih =>
    intro i hi es hr
    obtain ⟨g1, g2⟩ := runEntities_early h (i := i) (by omega) hr
    have hok := runEntities_ok (clk := clockAt clk i) (es := es)
    cases hx : each (runEntity (clockAt clk i)) es with
    | mk es' o =>
      rw [hx] at g1 g2 hok
      cases o with
      | some err =>
        simp only [runLoop, hx, loop]
        refine ⟨g1, ?_⟩
        intro err' he; simp only [Option.some.injEq] at he; subst he
        simp only [g2 _ rfl]
      | none =>
        simp only [runLoop, hx, loop, hok rfl]
        exact ih (i + 1) (by omega) g1

theorem prepareModel_early {m : Model} (h : Early m.clock m.periodCount) : (prepareModel m).err = none :=
  each_none (fun e _ => prepareEntity_dated (clk := m.clock.reset) h.dated h.plus e)

theorem runModel_early {m : Model} (h : Early m.clock m.periodCount) :
    (∀ e ∈ (runModel m).val.entities, Running m.clock m.periodCount e) ∧
    ∀ err, (runModel m).err = some err → m.run = .error err := by
  have hp := prepareModel_early h
  have hv := prepareModel_ok hp
  unfold runModel
  cases hx : prepareModel m with
  | mk p o =>
    rw [hx] at hp hv
    simp only at hp hv; subst hp
    dsimp only
    subst hv
    have hrun : ∀ e ∈ m.prepare.entities, Running m.clock m.periodCount e := by
      intro e he
      simp only [Model.prepare, List.mem_map] at he
      obtain ⟨x, _, rfl⟩ := he
      exact ⟨rfl, rfl, Int.le_refl _, by intro t ht; simp [Entity.prepare] at ht⟩
    obtain ⟨g1, g2⟩ := runLoop_early h m.periodCount 0 (by omega) hrun
    refine ⟨g1, ?_⟩
    intro err he
    have := g2 err he
    unfold Model.run
    dsimp only
    have e1 : m.prepare.periodCount = m.periodCount := rfl
    have e2 : m.prepare.clock = clockAt m.clock 0 := rfl
    rw [e1, e2, this]

/-! ## Ledgers after a run that raised -/

theorem yearEnd_prefix (clk : Clock) (e : Entity) : ∃ l, (yearEnd clk e).val.transactions = e.transactions ++ l ∧
    ((yearEnd clk e).err ≠ none → l = []) := by
  unfold yearEnd
  split
  · exact ⟨[], by simp, by simp⟩
  · split
    · split
      · exact ⟨[], by simp, by simp⟩
      · split
        · exact ⟨[], by simp, by simp⟩
        · split
          · exact ⟨[], by simp [Entity.advance], by simp⟩
          · exact ⟨_, rfl, by simp⟩
    · exact ⟨[], by simp, by simp⟩

theorem runEntity_prefix (clk : Clock) (e : Entity) : ∃ l, (runEntity clk e).val.transactions = e.transactions ++ l ∧
    ((runEntity clk e).err ≠ none → ∀ t ∈ l, t.closingCr = false ∧ t.closingDt = false) := by
  unfold runEntity
  split
  · exact ⟨[], by simp, by simp⟩
  · dsimp only
    split
    · exact ⟨_, rfl, fun _ t ht => (runComponents_txs clk _ t ht).2⟩
    · obtain ⟨l, h1, h2⟩ := yearEnd_prefix clk
        { e with components := (runComponents clk e.components).val.1, transactions := e.transactions ++ (runComponents clk e.components).val.2 }
      refine ⟨(runComponents clk e.components).val.2 ++ l, ?_, ?_⟩
      · rw [h1]; simp
      · intro hne
        rw [h2 hne]
        intro t ht
        rw [List.append_nil] at ht
        exact (runComponents_txs clk _ t ht).2

theorem each_err {α : Type} {f : α → Out α} : ∀ {l : List α} {x : PyErr}, (each f l).err = some x →
    ∃ pre a post, l = pre ++ a :: post ∧ (∀ b ∈ pre, (f b).err = none) ∧ (f a).err = some x ∧
      (each f l).val = pre.map (fun b => (f b).val) ++ (f a).val :: post := by
  intro l
  induction l with
  | nil => intro x h; simp [each] at h
  | cons a as ih =>
    intro x h
    cases hr : f a with
    | mk a' o =>
      cases o with
      | some e =>
        simp only [each, hr, Option.some.injEq] at h
        subst h
        exact ⟨[], a, as, rfl, by simp, by rw [hr], by simp [each, hr]⟩
      | none =>
        simp only [each, hr] at h
        obtain ⟨pre, b, post, h1, h2, h3, h4⟩ := ih h
        refine ⟨a :: pre, b, post, by simp [h1], ?_, h3, ?_⟩
        · intro c hc; simp only [List.mem_cons] at hc
          rcases hc with rfl | hc
          · rw [hr]
          · exact h2 c hc
        · simp only [each, hr, h4, List.map_cons, List.cons_append]

theorem runLoop_single (k : Nat) : ∀ (clk : Clock) (e : Entity), ∃ e', (runLoop k clk [e]).val.2 = [e'] ∧
    e.transactions <+: e'.transactions := by
  induction k with
  | zero => intro clk e; exact ⟨e, rfl, List.prefix_rfl⟩
  | succ k ih =>
    intro clk e
    obtain ⟨l, hl, _⟩ := runEntity_prefix clk e
    cases hr : runEntity clk e with
    | mk e' o =>
      rw [hr] at hl
      cases o with
      | some x => simp only [runLoop, each, hr]; exact ⟨e', rfl, l, hl.symm⟩
      | none =>
        simp only [runLoop, each, hr]
        obtain ⟨e'', h1, h2⟩ := ih clk.tick e'
        exact ⟨e'', h1, List.IsPrefix.trans ⟨l, hl.symm⟩ h2⟩

/-- One period of an entity followed by the rest of its run on its own. -/
theorem runLoop_single_succ (k : Nat) (clk : Clock) (e : Entity) : ∃ e', (runLoop (k + 1) clk [e]).val.2 = [e'] ∧
    (runEntity clk e).val.transactions <+: e'.transactions := by
  cases hr : runEntity clk e with
  | mk e' o =>
    cases o with
    | some x => simp only [runLoop, each, hr]; exact ⟨e', rfl, List.prefix_rfl⟩
    | none => simp only [runLoop, each, hr]; exact runLoop_single k clk.tick e'

theorem runLoop_prefix (k : Nat) : ∀ (clk : Clock) (es : List Entity) (i : Nat) (e : Entity), es[i]? = some e →
    ∃ e' e'', (runLoop k clk es).val.2[i]? = some e' ∧ (runLoop k clk [e]).val.2 = [e''] ∧
      e'.transactions <+: e''.transactions := by
  induction k with
  | zero => intro clk es i e h; exact ⟨e, e, h, rfl, List.prefix_rfl⟩
  | succ k ih =>
    intro clk es i e h
    obtain ⟨e2, s1, s2⟩ := runLoop_single_succ k clk e
    obtain ⟨l, hl, _⟩ := runEntity_prefix clk e
    cases hx : each (runEntity clk) es with
    | mk es' o =>
      cases o with
      | some x =>
        simp only [runLoop, hx]
        obtain ⟨pre, a, post, h1, h2, h3, h4⟩ := each_err (x := x) (f := runEntity clk) (l := es) (by rw [hx])
        rw [hx] at h4
        simp only at h4
        refine ⟨if i ≤ pre.length then (runEntity clk e).val else e, e2, ?_, s1, ?_⟩
        · subst h1
          rw [h4]
          rcases Nat.lt_trichotomy i pre.length with hlt | heq | hgt
          · rw [List.getElem?_append_left hlt] at h
            rw [List.getElem?_append_left (by simpa using hlt), List.getElem?_map, h]
            simp [Nat.le_of_lt hlt]
          · subst heq
            rw [List.getElem?_append_right (Nat.le_refl _)] at h
            simp at h; subst h
            rw [List.getElem?_append_right (by simp)]; simp
          · rw [List.getElem?_append_right (by omega)] at h
            rw [List.getElem?_append_right (by simp; omega)]
            have : i - pre.length = (i - pre.length - 1) + 1 := by omega
            rw [this, List.getElem?_cons_succ] at h
            rw [List.length_map, this, List.getElem?_cons_succ, h, if_neg (by omega)]
        · split
          · exact s2
          · exact List.IsPrefix.trans ⟨l, hl.symm⟩ s2
      | none =>
        simp only [runLoop, hx]
        have hv := each_ok (f := runEntity clk) (g := fun b => (runEntity clk b).val) (fun _ _ => rfl) (l := es) (by rw [hx])
        have hn := each_mem_none (f := runEntity clk) (l := es) (by rw [hx]) e (List.mem_of_getElem? h)
        rw [hx] at hv
        simp only at hv
        have h' : es'[i]? = some (runEntity clk e).val := by rw [hv, List.getElem?_map, h]; rfl
        obtain ⟨e', e'', g1, g2, g3⟩ := ih clk.tick es' i _ h'
        refine ⟨e', e'', g1, ?_, g3⟩
        cases hr : runEntity clk e with
        | mk b o =>
          rw [hr] at hn g2
          simp only at hn; subst hn
          simp only [each, hr]
          exact g2

theorem runLoop_culprit (k : Nat) : ∀ (clk : Clock) (es : List Entity) (x : PyErr), (runLoop k clk es).err = some x →
    ∃ (i : Nat) (e e' : Entity), es[i]? = some e ∧ (runLoop k clk es).val.2[i]? = some e' ∧
      runLoop k clk [e] = ⟨((runLoop k clk es).val.1, [e']), some x⟩ := by
  induction k with
  | zero => intro clk es x h; simp [runLoop] at h
  | succ k ih =>
    intro clk es x h
    cases hx : each (runEntity clk) es with
    | mk es' o =>
      cases o with
      | some y =>
        simp only [runLoop, hx, Option.some.injEq] at h ⊢
        subst h
        obtain ⟨pre, a, post, h1, h2, h3, h4⟩ := each_err (x := y) (f := runEntity clk) (l := es) (by rw [hx])
        rw [hx] at h4
        simp only at h4
        refine ⟨pre.length, a, (runEntity clk a).val, by rw [h1]; simp, ?_, ?_⟩
        · rw [h4, List.getElem?_append_right (by simp)]; simp
        · cases hr : runEntity clk a with
          | mk b o => rw [hr] at h3; simp only at h3; subst h3; simp only [each, hr]
      | none =>
        simp only [runLoop, hx] at h ⊢
        obtain ⟨i, e, e', g1, g2, g3⟩ := ih _ _ _ h
        have hv := each_ok (f := runEntity clk) (g := fun b => (runEntity clk b).val) (fun _ _ => rfl) (l := es) (by rw [hx])
        rw [hx] at hv
        simp only at hv
        rw [hv, List.getElem?_map] at g1
        cases h0 : es[i]? with
        | none => rw [h0] at g1; simp at g1
        | some e0 =>
          rw [h0] at g1; simp only [Option.map_some, Option.some.injEq] at g1
          subst g1
          have hn := each_mem_none (f := runEntity clk) (l := es) (by rw [hx]) e0 (List.mem_of_getElem? h0)
          refine ⟨i, e0, e', h0, g2, ?_⟩
          cases hr : runEntity clk e0 with
          | mk b o =>
            rw [hr] at hn g3
            simp only at hn; subst hn
            simp only [each, hr]
            exact g3

end Auxi.RunState
