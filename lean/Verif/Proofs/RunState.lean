import Verif.RunState
import Verif.Proofs.BusinessRun
import Verif.Proofs.Schedule
/-! # Lemmas about runs that raise -/
namespace Auxi.RunState
open Business Time Calendar Ledger Business.Spec

/-! ## A call that raises nothing does what `Verif.Business` says -/

theorem dateAt_ok {clk : Clock} {ix d : Int} (h : dateAt clk ix = .ok d) : d = clk.atIx ix := by
  unfold dateAt at h; split at h <;> simp_all

theorem plusYear_ok {t d : Int} (h : plusYear t = .ok d) : d = addYears t 1 := by
  unfold plusYear at h; split at h <;> simp_all

theorem minusSecond_ok {t d : Int} (h : minusSecond t = .ok d) : d = t - 1000000 := by
  unfold minusSecond at h; split at h <;> simp_all

theorem searchFrom_ok {clk : Clock} {t : Int} (k : Nat) : ∀ (i : Nat) {r : Option Nat}, searchFrom clk t k i = .ok r →
    r = (List.range' i k).find? (fun j => decide (clk.atIx (j : Nat) > t)) := by
  induction k with
  | zero => intro i r h; simp [searchFrom] at h; simp [h]
  | succ k ih =>
    intro i r h
    unfold searchFrom at h
    split at h
    · simp at h
    · rename_i d hd
      rw [dateAt_ok hd] at h
      rw [List.range'_succ, List.find?_cons]
      split at h
      · rename_i hlt; simp at h; simp [hlt, h]
      · rename_i hlt; simp only [hlt, decide_false]; exact ih _ h

theorem search_ok {clk : Clock} {t : Int} {n : Nat} {r : Option Nat} (h : searchFrom clk t n 0 = .ok r) :
    r = firstAfter clk t n := by
  rw [searchFrom_ok n 0 h, firstAfter, List.range_eq_range']

theorem setStart_prep {clk : Clock} {n : Nat} {a : Activity} {r : Option Nat} (h : searchStart clk n a = .ok r) :
    (setStart a r).startIx = a.prepStart clk n := by
  unfold searchStart at h
  unfold setStart Activity.prepStart
  split at h
  · rename_i hc
    rw [search_ok h, if_pos hc]; rfl
  · rename_i hc
    simp only [Except.ok.injEq] at h; subst h
    rw [if_neg hc]

theorem prepareActivity_ok {clk : Clock} {n : Nat} {a : Activity} (h : (prepareActivity clk n a).err = none) :
    (prepareActivity clk n a).val = a.prepare clk n := by
  unfold prepareActivity at h ⊢
  split at h
  · simp at h
  · rename_i r hr
    split at h
    · simp at h
    · rename_i r' hr'
      have hs := setStart_prep hr
      simp only [hr, hr']
      have hp : (setStop n (setStart a r) r').periodCount = a.prepCount clk n := by
        unfold searchStop at hr'
        unfold Activity.prepCount
        have e1 : (setStart a r).periodCount = a.periodCount := rfl
        have e2 : (setStart a r).stop = a.stop := rfl
        rw [e1, e2] at hr'
        split at hr'
        · rename_i hc
          rw [if_pos hc, ← search_ok hr', ← hs]
          cases r' <;> rfl
        · rename_i hc
          simp only [Except.ok.injEq] at hr'; subst hr'
          rw [if_neg hc]; rfl
      have he : (setStop n (setStart a r) r').endIx = a.prepEnd clk n := by
        have : (setStop n (setStart a r) r').endIx = if (setStop n (setStart a r) r').periodCount ≠ -1
          then (setStart a r).startIx + (setStop n (setStart a r) r').periodCount else (setStart a r).startIx + n := rfl
        rw [this, hp, hs, Activity.prepEnd]
      have : ∀ x : Activity, x = setStop n (setStart a r) r' → x.periodCount = a.prepCount clk n → x.endIx = a.prepEnd clk n →
          x.startIx = a.prepStart clk n → x = a.prepare clk n := by
        intro x hx h1 h2 h3
        have e : x = { a with startIx := x.startIx, periodCount := x.periodCount, endIx := x.endIx, kind := a.kind.reset } := by
          subst hx; rfl
        rw [e, h1, h2, h3]; rfl
      exact this _ rfl hp he hs

theorem each_ok {α : Type} {f : α → Out α} {g : α → α} (hf : ∀ a, (f a).err = none → (f a).val = g a) :
    ∀ {l : List α}, (each f l).err = none → (each f l).val = l.map g := by
  intro l
  induction l with
  | nil => intro _; rfl
  | cons a as ih =>
    intro h
    unfold each at h ⊢
    have := hf a
    split at h
    · simp at h
    · rename_i a' ha
      rw [ha] at this
      have e : a' = g a := this rfl
      simp only [List.map_cons, ih h, e]

mutual
theorem prepareComponent_ok (clk : Clock) (n : Nat) : ∀ c : Component, (prepareComponent clk n c).err = none →
    (prepareComponent clk n c).val = c.prepare clk n
  | ⟨nm, d, pp, p, cs, as⟩ => by
    intro h
    have ih := prepareComponents_ok clk n cs
    unfold prepareComponent at h ⊢
    split at h
    · simp at h
    · rename_i cs' hcs
      rw [hcs] at ih
      simp only at h
      simp only [hcs, Component.prepare, ← ih rfl, each_ok (fun a => prepareActivity_ok) h]
theorem prepareComponents_ok (clk : Clock) (n : Nat) : ∀ cs : List Component, (prepareComponents clk n cs).err = none →
    (prepareComponents clk n cs).val = Business.prepareComponents clk n cs
  | [] => by intro _; rfl
  | c :: cs => by
    intro h
    have ih := prepareComponents_ok clk n cs
    have ihc := prepareComponent_ok clk n c
    unfold prepareComponents at h ⊢
    split at h
    · simp at h
    · rename_i c' hc
      rw [hc] at ihc
      simp only [hc, Business.prepareComponents, ← ihc rfl, ih h]
end

theorem prepareEntity_ok {clk : Clock} {n : Nat} {e : Entity} (h : (prepareEntity clk n e).err = none) :
    (prepareEntity clk n e).val = e.prepare clk n := by
  unfold prepareEntity at h ⊢
  split at h
  · simp at h
  · rename_i x hx
    split at h
    · simp at h
    · rename_i y hy
      simp only [hx, hy, Entity.prepare, ← prepareComponents_ok clk n _ h, dateAt_ok hx, plusYear_ok hy]

theorem runActivity_ok {clk : Clock} {a : Activity} (h : (runActivity clk a).err = none) : (runActivity clk a).val = a.run clk := by
  unfold runActivity at h ⊢
  split at h
  · rename_i hm; simp [hm, Activity.run]
  · rename_i hm
    split at h
    · simp at h
    · rename_i d hd; simp [hm, hd]

theorem runActivities_ok {clk : Clock} : ∀ {as : List Activity}, (runActivities clk as).err = none →
    (runActivities clk as).val = Business.runActivities clk as := by
  intro as
  induction as with
  | nil => intro _; rfl
  | cons a as ih =>
    intro h
    have ha := runActivity_ok (clk := clk) (a := a)
    unfold runActivities at h ⊢
    split at h
    · simp at h
    · rename_i r hr
      rw [hr] at ha
      simp only [hr, ih h, Business.runActivities, ← ha rfl]

mutual
theorem runComponent_ok (clk : Clock) : ∀ c : Component, (runComponent clk c).err = none →
    (runComponent clk c).val = c.run clk
  | ⟨nm, d, pp, p, cs, as⟩ => by
    intro h
    have ih := runComponents_ok clk cs
    unfold runComponent at h ⊢
    split at h
    · simp at h
    · rename_i r hr
      rw [hr] at ih
      simp only at h
      simp only [hr, Component.run, ← ih rfl, runActivities_ok h]
theorem runComponents_ok (clk : Clock) : ∀ cs : List Component, (runComponents clk cs).err = none →
    (runComponents clk cs).val = Business.runComponents clk cs
  | [] => by intro _; rfl
  | c :: cs => by
    intro h
    have ih := runComponents_ok clk cs
    have ihc := runComponent_ok clk c
    unfold runComponents at h ⊢
    split at h
    · simp at h
    · rename_i r hr
      rw [hr] at ihc
      simp only [hr, Business.runComponents, ← ihc rfl, ih h]
end

theorem yearEnd_ok {clk : Clock} {e : Entity} (h : (yearEnd clk e).err = none) : e.yearEnd clk = .ok (yearEnd clk e).val := by
  unfold yearEnd at h ⊢
  unfold Entity.yearEnd
  split at h
  · simp at h
  · rename_i now hnow
    have en : now = clk.now := dateAt_ok hnow
    subst en
    simp only [hnow]
    split at h
    · rename_i hc
      rw [if_pos hc, if_pos hc]
      split at h
      · simp at h
      · rename_i last hlast
        try simp only [hlast]
        split at h
        · simp at h
        · rename_i nx hnx
          try simp only [hnx]
          split at h
          · simp at h
          · rename_i w hw
            simp only [hw, minusSecond_ok hlast]
    · rename_i hc
      rw [if_neg hc, if_neg hc]

theorem runEntity_ok {clk : Clock} {e : Entity} (h : (runEntity clk e).err = none) : e.run clk = .ok (runEntity clk e).val := by
  unfold runEntity at h ⊢
  unfold Entity.run
  split at h
  · rename_i hc; rw [if_pos hc, if_pos hc]
  · rename_i hc
    rw [if_neg hc, if_neg hc]
    dsimp only at h ⊢
    split at h
    · simp at h
    · rename_i hr
      try simp only [hr]
      rw [runComponents_ok clk _ hr] at h ⊢
      exact yearEnd_ok h

theorem runEntities_ok {clk : Clock} : ∀ {es : List Entity}, (each (runEntity clk) es).err = none →
    runEntities clk es = .ok (each (runEntity clk) es).val := by
  intro es
  induction es with
  | nil => intro _; rfl
  | cons e es ih =>
    intro h
    have he := runEntity_ok (clk := clk) (e := e)
    unfold each at h ⊢
    split at h
    · simp at h
    · rename_i e' hr
      rw [hr] at he
      simp only [hr, runEntities, he rfl, ih h]

theorem runLoop_ok (k : Nat) : ∀ {clk : Clock} {es : List Entity}, (runLoop k clk es).err = none →
    loop k clk es = .ok (runLoop k clk es).val := by
  induction k with
  | zero => intro clk es _; rfl
  | succ k ih =>
    intro clk es h
    have he := runEntities_ok (clk := clk) (es := es)
    unfold runLoop at h ⊢
    split at h
    · simp at h
    · rename_i es' hr
      rw [hr] at he
      simp only [hr, loop, he rfl, ih h]

theorem prepareModel_ok {m : Model} (h : (prepareModel m).err = none) : (prepareModel m).val = m.prepare := by
  unfold prepareModel at h ⊢
  simp only at h
  simp only [Model.prepare, each_ok (fun e => prepareEntity_ok) h]

theorem runModel_ok {m : Model} (h : (runModel m).err = none) : m.run = .ok (runModel m).val := by
  have hp := prepareModel_ok (m := m)
  unfold runModel at h ⊢
  split at h
  · simp at h
  · rename_i p hr
    rw [hr] at hp
    simp only [hr, Model.run, ← hp rfl]
    have := runLoop_ok p.periodCount (clk := p.clock) (es := p.entities) h
    rw [this]; rfl

/-! ## Inside the calendar only the year end procedure raises -/

theorem dateAt_in {clk : Clock} {ix : Int} (h : inCalendar (clk.atIx ix) = true) : dateAt clk ix = .ok (clk.atIx ix) := by
  simp [dateAt, h]

theorem inCalendar_iff (t : Int) : inCalendar t = true ↔ dtMin ≤ t ∧ t ≤ dtMax := by simp [inCalendar]

/-- The dates of the periods `0 … n` lie in the calendar. -/
def Dated (clk : Clock) (n : Nat) : Prop := ∀ i : Nat, i ≤ n → inCalendar (clk.atIx i) = true

theorem searchFrom_dated {clk : Clock} {n : Nat} (hd : Dated clk n) (t : Int) (k : Nat) : ∀ i : Nat, i + k ≤ n →
    ∃ r, searchFrom clk t k i = .ok r := by
  induction k with
  | zero => intro i _; exact ⟨none, rfl⟩
  | succ k ih =>
    intro i hi
    unfold searchFrom
    rw [dateAt_in (hd i (by omega))]
    dsimp only
    split
    · exact ⟨_, rfl⟩
    · exact ih (i + 1) (by omega)

theorem prepareActivity_dated {clk : Clock} {n : Nat} (hd : Dated clk n) (a : Activity) : (prepareActivity clk n a).err = none := by
  unfold prepareActivity
  have h1 : ∃ r, searchStart clk n a = .ok r := by
    unfold searchStart; split
    · exact searchFrom_dated hd _ n 0 (by omega)
    · exact ⟨_, rfl⟩
  obtain ⟨r, hr⟩ := h1
  have h2 : ∃ r', searchStop clk n (setStart a r) = .ok r' := by
    unfold searchStop; split
    · exact searchFrom_dated hd _ n 0 (by omega)
    · exact ⟨_, rfl⟩
  obtain ⟨r', hr'⟩ := h2
  simp [hr, hr']

theorem each_none {α : Type} {f : α → Out α} : ∀ {l : List α}, (∀ a ∈ l, (f a).err = none) → (each f l).err = none := by
  intro l
  induction l with
  | nil => intro _; rfl
  | cons a as ih =>
    intro h
    have ha := h a (by simp)
    unfold each
    split
    · rename_i hr; rw [hr] at ha; simp at ha
    · exact ih (fun b hb => h b (by simp [hb]))

mutual
theorem prepareComponent_dated {clk : Clock} {n : Nat} (hd : Dated clk n) : ∀ c : Component, (prepareComponent clk n c).err = none
  | ⟨nm, d, pp, p, cs, as⟩ => by
    have ih := prepareComponents_dated hd cs
    unfold prepareComponent
    split
    · rename_i hr; rw [hr] at ih; simp at ih
    · exact each_none (fun a _ => prepareActivity_dated hd a)
theorem prepareComponents_dated {clk : Clock} {n : Nat} (hd : Dated clk n) : ∀ cs : List Component, (prepareComponents clk n cs).err = none
  | [] => rfl
  | c :: cs => by
    have ihc := prepareComponent_dated hd c
    unfold prepareComponents
    split
    · rename_i hr; rw [hr] at ihc; simp at ihc
    · exact prepareComponents_dated hd cs
end

theorem prepareEntity_dated {clk : Clock} {n : Nat} (hd : Dated clk n) (hy : inCalendar (addYears clk.start 1) = true) (e : Entity) :
    (prepareEntity clk n e).err = none := by
  unfold prepareEntity
  rw [dateAt_in (hd n (by omega))]
  simp only [plusYear, hy, if_true]
  exact prepareComponents_dated hd _

theorem runActivity_dated {clk : Clock} (hd : inCalendar clk.now = true) (a : Activity) : (runActivity clk a).err = none := by
  unfold runActivity
  split
  · rfl
  · rw [dateAt_in hd]

theorem runActivities_dated {clk : Clock} (hd : inCalendar clk.now = true) : ∀ as : List Activity, (runActivities clk as).err = none
  | [] => rfl
  | a :: as => by
    have ha := runActivity_dated hd a
    unfold runActivities
    split
    · rename_i hr; rw [hr] at ha; simp at ha
    · exact runActivities_dated hd as

mutual
theorem runComponent_dated {clk : Clock} (hd : inCalendar clk.now = true) : ∀ c : Component, (runComponent clk c).err = none
  | ⟨nm, d, pp, p, cs, as⟩ => by
    have ih := runComponents_dated hd cs
    unfold runComponent
    split
    · rename_i hr; rw [hr] at ih; simp at ih
    · exact runActivities_dated hd as
theorem runComponents_dated {clk : Clock} (hd : inCalendar clk.now = true) : ∀ cs : List Component, (runComponents clk cs).err = none
  | [] => rfl
  | c :: cs => by
    have ihc := runComponent_dated hd c
    unfold runComponents
    split
    · rename_i hr; rw [hr] at ihc; simp at ihc
    · exact runComponents_dated hd cs
end

/-! ## Preparing again -/

theorem setStart_startIx (a : Activity) (r : Option Nat) : (setStart a r).startIx ≠ -1 := by
  have h : ∀ s : Int, (if s = -1 then 0 else s) ≠ -1 := by intro s; split <;> omega
  exact h _

theorem setStart_none {a : Activity} (h : a.startIx ≠ -1) : setStart a none = a := by
  unfold setStart
  simp [h]

theorem searchStart_none {clk : Clock} {n : Nat} {a : Activity} (h : a.startIx ≠ -1) : searchStart clk n a = .ok none := by
  simp [searchStart, h]

theorem setStop_searchStop {clk : Clock} {n : Nat} {a : Activity} {r : Option Nat} (h : searchStop clk n a = .ok r) :
    ∃ r', searchStop clk n (setStop n a r) = .ok r' ∧ setStop n (setStop n a r) r' = setStop n a r := by
  have hk : ∀ k : Kind, k.reset.reset = k.reset := by intro k; cases k <;> rfl
  unfold searchStop at h
  split at h
  · rename_i hc
    cases r with
    | none =>
      refine ⟨none, ?_, ?_⟩
      · have e1 : (setStop n a none).periodCount = a.periodCount := rfl
        have e2 : (setStop n a none).stop = a.stop := rfl
        rw [searchStop, e1, e2, if_pos hc]; exact h
      · simp [setStop, hk]
    | some i =>
      by_cases hp : (i : Int) - a.startIx = -1
      · refine ⟨some i, ?_, ?_⟩
        · have e1 : (setStop n a (some i)).periodCount = (i : Int) - a.startIx := rfl
          have e2 : (setStop n a (some i)).stop = a.stop := rfl
          rw [searchStop, e1, e2, if_pos ⟨hp, hc.2⟩]; exact h
        · simp [setStop, hk]
      · refine ⟨none, ?_, ?_⟩
        · have e1 : (setStop n a (some i)).periodCount = (i : Int) - a.startIx := rfl
          rw [searchStop, e1, if_neg (fun h => hp h.1)]
        · simp [setStop, hk]
  · rename_i hc
    simp only [Except.ok.injEq] at h; subst h
    refine ⟨none, ?_, ?_⟩
    · have e1 : (setStop n a none).periodCount = a.periodCount := rfl
      have e2 : (setStop n a none).stop = a.stop := rfl
      rw [searchStop, e1, e2, if_neg hc]
    · simp [setStop, hk]

theorem prepareActivity_idem (clk : Clock) (n : Nat) (a : Activity) :
    prepareActivity clk n (prepareActivity clk n a).val = prepareActivity clk n a := by
  unfold prepareActivity
  cases hr : searchStart clk n a with
  | error e => simp only [hr]
  | ok r =>
    dsimp only
    have hs := setStart_startIx a r
    cases hr' : searchStop clk n (setStart a r) with
    | error e =>
      dsimp only
      rw [searchStart_none hs]; dsimp only
      rw [setStart_none hs]; simp only [hr']
    | ok r' =>
      dsimp only
      have hs' : (setStop n (setStart a r) r').startIx ≠ -1 := hs
      rw [searchStart_none hs']; dsimp only
      rw [setStart_none hs']
      obtain ⟨r2, h1, h2⟩ := setStop_searchStop hr'
      simp only [h1, h2]

theorem each_idem {α : Type} {f : α → Out α} (hf : ∀ a, f (f a).val = f a) : ∀ l : List α, each f (each f l).val = each f l
  | [] => rfl
  | a :: as => by
    have ih := each_idem hf as
    have ha := hf a
    cases hr : f a with
    | mk a' o =>
      rw [hr] at ha
      cases o with
      | some e => simp only [each, hr, ha]
      | none => simp only [each, hr, ha, ih]

mutual
theorem prepareComponent_idem (clk : Clock) (n : Nat) : ∀ c : Component,
    prepareComponent clk n (prepareComponent clk n c).val = prepareComponent clk n c
  | ⟨nm, d, pp, p, cs, as⟩ => by
    have ih := prepareComponents_idem clk n cs
    cases hr : prepareComponents clk n cs with
    | mk cs' o =>
      rw [hr] at ih
      cases o with
      | some e => simp only [prepareComponent, hr, ih]
      | none => simp only [prepareComponent, hr, ih, each_idem (prepareActivity_idem clk n)]
theorem prepareComponents_idem (clk : Clock) (n : Nat) : ∀ cs : List Component,
    prepareComponents clk n (prepareComponents clk n cs).val = prepareComponents clk n cs
  | [] => rfl
  | c :: cs => by
    have ih := prepareComponents_idem clk n cs
    have ihc := prepareComponent_idem clk n c
    cases hr : prepareComponent clk n c with
    | mk c' o =>
      rw [hr] at ihc
      cases o with
      | some e => simp only [prepareComponents, hr, ihc]
      | none => simp only [prepareComponents, hr, ihc, ih]
end

theorem prepareEntity_idem (clk : Clock) (n : Nat) (e : Entity) :
    prepareEntity clk n (prepareEntity clk n e).val = prepareEntity clk n e := by
  unfold prepareEntity
  cases dateAt clk n with
  | error err => rfl
  | ok x =>
    dsimp only
    cases plusYear clk.start with
    | error err => rfl
    | ok y => simp only [prepareComponents_idem]

/-! ## Preparing after running -/

theorem runActivity_prepare {clk c : Clock} {n : Nat} {a : Activity} (h : (prepareActivity clk n a).err = none) :
    prepareActivity clk n (runActivity c a).val.1 = prepareActivity clk n a := by
  have key : ∃ k : Kind, (runActivity c a).val.1 = { a with kind := k } ∧ k.reset = a.kind.reset := by
    unfold runActivity
    split
    · exact ⟨a.kind, rfl, rfl⟩
    · split
      · exact ⟨a.kind, rfl, rfl⟩
      · dsimp only
        unfold Activity.run
        split
        · exact ⟨a.kind, rfl, rfl⟩
        · cases hk : a.kind with
          | basic am dt cr => exact ⟨a.kind, rfl, by rw [hk]⟩
          | loan b l i am ra p d m lf =>
            dsimp only
            split
            · exact ⟨_, rfl, rfl⟩
            · exact ⟨_, rfl, rfl⟩
  obtain ⟨k, hk, hkr⟩ := key
  rw [hk]
  unfold prepareActivity at h ⊢
  have e1 : searchStart clk n { a with kind := k } = searchStart clk n a := rfl
  rw [e1]
  cases hr : searchStart clk n a with
  | error e => simp [hr] at h
  | ok r =>
    dsimp only
    have e2 : setStart { a with kind := k } r = { setStart a r with kind := k } := rfl
    have e3 : searchStop clk n { setStart a r with kind := k } = searchStop clk n (setStart a r) := rfl
    rw [e2, e3]
    cases hr' : searchStop clk n (setStart a r) with
    | error e => simp [hr, hr'] at h
    | ok r' =>
      dsimp only
      have : setStop n { setStart a r with kind := k } r' = setStop n (setStart a r) r' := by
        have e4 : (setStart a r).kind = a.kind := rfl
        simp only [setStop, hkr, e4]
      rw [this]

theorem runActivities_prepare {clk c : Clock} {n : Nat} : ∀ {as : List Activity}, (each (prepareActivity clk n) as).err = none →
    each (prepareActivity clk n) (runActivities c as).val.1 = each (prepareActivity clk n) as := by
  intro as
  induction as with
  | nil => intro _; rfl
  | cons a as ih =>
    intro h
    have ha := runActivity_prepare (clk := clk) (c := c) (n := n) (a := a)
    cases hp : prepareActivity clk n a with
    | mk a' o =>
      rw [hp] at ha
      cases o with
      | some e => simp [each, hp] at h
      | none =>
        have h' : (each (prepareActivity clk n) as).err = none := by simpa [each, hp] using h
        cases hr : runActivity c a with
        | mk r o =>
          rw [hr] at ha
          cases o with
          | some e => simp only [runActivities, hr, each, ha rfl, hp]
          | none => simp only [runActivities, hr, each, ha rfl, hp, ih h']

mutual
theorem runComponent_prepare {clk c : Clock} {n : Nat} : ∀ x : Component, (prepareComponent clk n x).err = none →
    prepareComponent clk n (runComponent c x).val.1 = prepareComponent clk n x
  | ⟨nm, d, pp, p, cs, as⟩ => by
    intro h
    have ih := runComponents_prepare (clk := clk) (c := c) (n := n) cs
    cases hp : prepareComponents clk n cs with
    | mk cs' o =>
      rw [hp] at ih
      cases o with
      | some e => simp [prepareComponent, hp] at h
      | none =>
        have h' : (each (prepareActivity clk n) as).err = none := by simpa [prepareComponent, hp] using h
        cases hr : runComponents c cs with
        | mk r o =>
          rw [hr] at ih
          cases o with
          | some e => simp only [runComponent, hr, prepareComponent, ih rfl, hp]
          | none => simp only [runComponent, hr, prepareComponent, ih rfl, hp, runActivities_prepare h']
theorem runComponents_prepare {clk c : Clock} {n : Nat} : ∀ cs : List Component, (prepareComponents clk n cs).err = none →
    prepareComponents clk n (runComponents c cs).val.1 = prepareComponents clk n cs
  | [] => by intro _; rfl
  | x :: cs => by
    intro h
    have ihx := runComponent_prepare (clk := clk) (c := c) (n := n) x
    have ih := runComponents_prepare (clk := clk) (c := c) (n := n) cs
    cases hp : prepareComponent clk n x with
    | mk x' o =>
      rw [hp] at ihx
      cases o with
      | some e => simp [prepareComponents, hp] at h
      | none =>
        have h' : (prepareComponents clk n cs).err = none := by simpa [prepareComponents, hp] using h
        cases hr : runComponent c x with
        | mk r o =>
          rw [hr] at ihx
          cases o with
          | some e => simp only [runComponents, hr, prepareComponents, ihx rfl, hp]
          | none => simp only [runComponents, hr, prepareComponents, ihx rfl, hp, ih h']
end

/-- What a run may change of an entity besides its components. -/
theorem prepareEntity_congr {clk : Clock} {n : Nat} {e e' : Entity} (h1 : e'.name = e.name) (h2 : e'.parentPath = e.parentPath)
    (h3 : e'.path = e.path) (h4 : e'.chart = e.chart) (h5 : prepareComponents clk n e'.components = prepareComponents clk n e.components)
    (h : (prepareEntity clk n e).err = none) : prepareEntity clk n e' = prepareEntity clk n e := by
  cases e with
  | mk nm pp pa ch tx cs pv cu ex pc =>
    cases e' with
    | mk nm' pp' pa' ch' tx' cs' pv' cu' ex' pc' =>
      simp only at h1 h2 h3 h4 h5
      subst h1 h2 h3 h4
      unfold prepareEntity at h ⊢
      cases hd : dateAt clk n with
      | error err => simp [hd] at h
      | ok x =>
        cases hy : plusYear clk.start with
        | error err => simp [hd, hy] at h
        | ok y => simp only [h5]

theorem yearEnd_static (clk : Clock) (e : Entity) : (yearEnd clk e).val.name = e.name ∧
    (yearEnd clk e).val.parentPath = e.parentPath ∧ (yearEnd clk e).val.path = e.path ∧ (yearEnd clk e).val.chart = e.chart ∧
    (yearEnd clk e).val.components = e.components := by
  unfold yearEnd
  split
  · exact ⟨rfl, rfl, rfl, rfl, rfl⟩
  · split
    · split
      · exact ⟨rfl, rfl, rfl, rfl, rfl⟩
      · split
        · exact ⟨rfl, rfl, rfl, rfl, rfl⟩
        · split
          · exact ⟨rfl, rfl, rfl, rfl, rfl⟩
          · exact ⟨rfl, rfl, rfl, rfl, rfl⟩
    · exact ⟨rfl, rfl, rfl, rfl, rfl⟩

theorem runEntity_static (clk : Clock) (e : Entity) : (runEntity clk e).val.name = e.name ∧
    (runEntity clk e).val.parentPath = e.parentPath ∧ (runEntity clk e).val.path = e.path ∧ (runEntity clk e).val.chart = e.chart := by
  unfold runEntity
  split
  · exact ⟨rfl, rfl, rfl, rfl⟩
  · dsimp only
    split
    · exact ⟨rfl, rfl, rfl, rfl⟩
    · obtain ⟨h1, h2, h3, h4, _⟩ := yearEnd_static clk
        { e with components := (runComponents clk e.components).val.1, transactions := e.transactions ++ (runComponents clk e.components).val.2 }
      exact ⟨h1, h2, h3, h4⟩

theorem runEntity_prepare {clk c : Clock} {n : Nat} {e : Entity} (h : (prepareEntity clk n e).err = none) :
    prepareEntity clk n (runEntity c e).val = prepareEntity clk n e := by
  obtain ⟨h1, h2, h3, h4⟩ := runEntity_static c e
  refine prepareEntity_congr h1 h2 h3 h4 ?_ h
  have hc : (prepareComponents clk n e.components).err = none := by
    unfold prepareEntity at h
    split at h
    · simp at h
    · split at h
      · simp at h
      · exact h
  unfold runEntity
  split
  · rfl
  · dsimp only
    split
    · exact runComponents_prepare _ hc
    · rw [(yearEnd_static c _).2.2.2.2]; exact runComponents_prepare _ hc

/-- Replacing the objects of a list by others that prepare to the same does not matter if nothing raises. -/
theorem each_congr {α : Type} {f : α → Out α} {l l' : List α} (h : List.Forall₂ (fun a a' => f a' = f a) l l')
    (hn : (each f l).err = none) : each f l' = each f l := by
  induction h with
  | nil => rfl
  | @cons a a' l l' ha _ ih =>
    cases hr : f a with
    | mk b o =>
      rw [hr] at ha
      cases o with
      | some e => simp [each, hr] at hn
      | none => simp only [each, ha, hr, ih (by simpa [each, hr] using hn)]

theorem each_mem_none {α : Type} {f : α → Out α} {l : List α} (hn : (each f l).err = none) : ∀ a ∈ l, (f a).err = none := by
  induction l with
  | nil => simp
  | cons a l ih =>
    cases hr : f a with
    | mk b o =>
      cases o with
      | some e => simp [each, hr] at hn
      | none =>
        intro x hx
        simp only [List.mem_cons] at hx
        rcases hx with rfl | hx
        · rw [hr]
        · exact ih (by simpa [each, hr] using hn) x hx

/-- A loop over a list leaves every object as the call left it or as it was. -/
theorem each_forall₂ {α : Type} {R : α → α → Prop} {f : α → Out α} : ∀ {l l' : List α}, List.Forall₂ R l l' →
    (∀ a ∈ l, ∀ a', R a a' → R a (f a').val) → List.Forall₂ R l (each f l').val := by
  intro l l' h
  induction h with
  | nil => intro _; exact .nil
  | @cons a a' l l' ha hl ih =>
    intro hs
    have h1 := hs a (by simp) a' ha
    cases hr : f a' with
    | mk b o =>
      rw [hr] at h1
      cases o with
      | some e => simp only [each, hr]; exact .cons h1 hl
      | none => simp only [each, hr]; exact .cons h1 (ih (fun x hx => hs x (by simp [hx])))

theorem runLoop_forall₂ {R : Entity → Entity → Prop} {l : List Entity}
    (hs : ∀ a ∈ l, ∀ a' clk, R a a' → R a (runEntity clk a').val) (k : Nat) : ∀ (clk : Clock) (l' : List Entity),
    List.Forall₂ R l l' → List.Forall₂ R l (runLoop k clk l').val.2 := by
  induction k with
  | zero => intro clk l' h; exact h
  | succ k ih =>
    intro clk l' h
    have h1 := each_forall₂ h (fun a ha a' h => hs a ha a' clk h)
    unfold runLoop
    split
    · rename_i hr; rw [hr] at h1; exact h1
    · rename_i hr; rw [hr] at h1; exact ih _ _ h1

theorem runLoop_clock (k : Nat) : ∀ (clk : Clock) (l : List Entity), (runLoop k clk l).val.1.reset = clk.reset := by
  induction k with
  | zero => intro clk l; rfl
  | succ k ih =>
    intro clk l
    unfold runLoop
    split
    · rfl
    · rw [ih]; rfl

/-- Preparing a model after a run, whether that succeeded or not, is preparing it before the run. -/
theorem prepareModel_after_run (m : Model) : prepareModel (runModel m).val = prepareModel m := by
  unfold runModel
  cases hp : prepareModel m with
  | mk p o =>
    have hcl : p.clock = m.clock.reset ∧ p.periodCount = m.periodCount ∧ p.name = m.name ∧
        (⟨p.entities, o⟩ : Out _) = each (prepareEntity m.clock.reset m.periodCount) m.entities := by
      unfold prepareModel at hp
      simp only [Out.mk.injEq] at hp
      obtain ⟨rfl, rfl⟩ := hp
      exact ⟨rfl, rfl, rfl, rfl⟩
    obtain ⟨h1, h2, h3, h4⟩ := hcl
    have idem := each_idem (prepareEntity_idem m.clock.reset m.periodCount) m.entities
    cases o with
    | some e =>
      dsimp only
      have hv : (each (prepareEntity m.clock.reset m.periodCount) m.entities).val = p.entities := by rw [← h4]
      have he : (each (prepareEntity m.clock.reset m.periodCount) m.entities).err = some e := by rw [← h4]
      have idem2 : each (prepareEntity m.clock.reset m.periodCount) p.entities = each (prepareEntity m.clock.reset m.periodCount) m.entities := by
        rw [← hv]; exact idem
      have hc : p.clock.reset = m.clock.reset := by rw [h1]; rfl
      unfold prepareModel
      dsimp only
      rw [hc, h2, idem2, hv, he, ← h1, ← h2]
    | none =>
      dsimp only
      have hn : (each (prepareEntity m.clock.reset m.periodCount) m.entities).err = none := by rw [← h4]
      have hv : (each (prepareEntity m.clock.reset m.periodCount) m.entities).val = p.entities := by rw [← h4]
      have idem2 : each (prepareEntity m.clock.reset m.periodCount) p.entities = each (prepareEntity m.clock.reset m.periodCount) m.entities := by
        rw [← hv]; exact idem
      have hn2 : (each (prepareEntity m.clock.reset m.periodCount) p.entities).err = none := by rw [idem2]; exact hn
      have hall := each_mem_none hn2
      have hrel : List.Forall₂ (fun a a' => prepareEntity m.clock.reset m.periodCount a' = prepareEntity m.clock.reset m.periodCount a)
          p.entities (runLoop p.periodCount p.clock p.entities).val.2 := by
        refine runLoop_forall₂ ?_ _ _ _ ?_
        · intro a ha a' clk h
          have := runEntity_prepare (clk := m.clock.reset) (c := clk) (n := m.periodCount) (e := a') (by rw [h]; exact hall a ha)
          rw [this, h]
        · exact List.forall₂_same.2 (fun _ _ => rfl)
      have hfin := each_congr hrel hn2
      unfold prepareModel runPrepared
      dsimp only
      have hc : (runLoop p.periodCount p.clock p.entities).val.1.reset = m.clock.reset := by rw [runLoop_clock, h1]; rfl
      rw [hc]
      rw [h2] at hfin ⊢
      rw [hfin, idem2, hv, hn, ← h1, ← h2]

end Auxi.RunState
