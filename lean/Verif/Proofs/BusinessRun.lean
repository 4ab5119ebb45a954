import Verif.Proofs.Business

namespace Auxi.Business
open Spec Time Calendar Ledger

/-! ## Closing transactions are marked -/

theorem grossClosings_closing (c : Chart) (src : Str) (date : Int) (d : Dict Ref) :
    ∀ t ∈ grossClosings c src date d, t.closingCr = true ∧ t.date = date ∧ t.source = src := by
  induction d with
  | nil => simp [grossClosings]
  | cons e d ih =>
    obtain ⟨acc, am⟩ := e
    intro t ht
    simp only [grossClosings, List.mem_append] at ht
    rcases ht with ht | ht
    · split at ht
      · simp at ht; subst ht; exact ⟨rfl, rfl, rfl⟩
      · split at ht
        · simp at ht; subst ht; exact ⟨rfl, rfl, rfl⟩
        · simp at ht
    · exact ih t ht

theorem incClosings_closing (c : Chart) (src : Str) (date : Int) (d : Dict Ref) :
    ∀ t ∈ incClosings c src date d, t.closingCr = true ∧ t.date = date ∧ t.source = src := by
  induction d with
  | nil => simp [incClosings]
  | cons e d ih =>
    obtain ⟨acc, am⟩ := e
    intro t ht
    simp only [incClosings, List.mem_append] at ht
    rcases ht with ht | ht
    · split at ht
      · split at ht <;> (simp at ht; subst ht; exact ⟨rfl, rfl, rfl⟩)
      · split at ht
        · split at ht <;> (simp at ht; subst ht; exact ⟨rfl, rfl, rfl⟩)
        · simp at ht
    · exact ih t ht

theorem closingTxs_closing (c : Chart) (src : Str) (date : Int) (w : WriteOff) :
    ∀ t ∈ closingTxs c src date w, t.closingCr = true ∧ t.date = date ∧ t.source = src := by
  intro t ht
  simp only [closingTxs, List.mem_append] at ht
  rcases ht with ((ht | ht) | ht) | ht
  · exact grossClosings_closing c src date _ t ht
  · exact incClosings_closing c src date _ t ht
  · unfold grossSettle at ht
    split at ht
    · simp at ht; subst ht; exact ⟨rfl, rfl, rfl⟩
    · split at ht
      · simp at ht; subst ht; exact ⟨rfl, rfl, rfl⟩
      · simp at ht
  · unfold retainedClosings at ht
    split at ht
    · simp at ht; subst ht; exact ⟨rfl, rfl, rfl⟩
    · split at ht
      · simp at ht; subst ht; exact ⟨rfl, rfl, rfl⟩
      · simp at ht

theorem posted_append (a b : List Tx) : posted (a ++ b) = posted a ++ posted b := by simp [posted]

theorem posted_closingTxs (c : Chart) (src : Str) (date : Int) (w : WriteOff) : posted (closingTxs c src date w) = [] := by
  unfold posted
  rw [List.filter_eq_nil_iff]
  intro t ht
  simp [(closingTxs_closing c src date w t ht).1]

theorem txsAt_open (clk : Clock) (a : Activity) (i : Nat) : ∀ t ∈ txsAt clk a i,
    t.closingCr = false ∧ t.closingDt = false ∧ t.date = clk.atIx i ∧ t.source = a.path := by
  intro t ht
  unfold txsAt at ht
  split at ht
  · simp only at ht
    split at ht
    · simp at ht; subst ht; exact ⟨rfl, rfl, rfl, rfl⟩
    · split at ht
      · simp at ht; subst ht; exact ⟨rfl, rfl, rfl, rfl⟩
      · simp at ht; rcases ht with rfl | rfl <;> exact ⟨rfl, rfl, rfl, rfl⟩
  · simp at ht

theorem posted_txs (clk : Clock) (as : List Activity) (i : Nat) :
    posted (as.flatMap (fun a => txsAt clk a i)) = as.flatMap (fun a => txsAt clk a i) := by
  unfold posted
  rw [List.filter_eq_self]
  intro t ht
  simp only [List.mem_flatMap] at ht
  obtain ⟨a, _, ht⟩ := ht
  simp [(txsAt_open clk a i t ht).1]

/-! ## Entity runs -/

/-- fields of an entity that a run does not change -/
def SameStatic (e e' : Entity) : Prop :=
  e'.name = e.name ∧ e'.parentPath = e.parentPath ∧ e'.path = e.path ∧ e'.chart = e.chart ∧
    e'.execYearEnd = e.execYearEnd ∧ e'.periodCount = e.periodCount

theorem SameStatic.refl (e : Entity) : SameStatic e e := ⟨rfl, rfl, rfl, rfl, rfl, rfl⟩
theorem SameStatic.trans {a b c : Entity} (h : SameStatic a b) (h' : SameStatic b c) : SameStatic a c := by
  obtain ⟨h1, h2, h3, h4, h5, h6⟩ := h
  obtain ⟨g1, g2, g3, g4, g5, g6⟩ := h'
  exact ⟨g1.trans h1, g2.trans h2, g3.trans h3, g4.trans h4, g5.trans h5, g6.trans h6⟩

theorem yearEnd_frame {clk : Clock} {e e' : Entity} (h : e.yearEnd clk = .ok e') :
    e'.components = e.components ∧ posted e'.transactions = posted e.transactions ∧ SameStatic e e' ∧
    (∃ cl, e'.transactions = e.transactions ++ cl ∧ ∀ t ∈ cl, t.closingCr = true ∧ t.date = e.currYearEnd - 1000000) := by
  unfold Entity.yearEnd at h
  split at h
  · split at h
    · simp at h
    · rename_i w hw
      simp only [Except.ok.injEq] at h
      subst h
      refine ⟨rfl, ?_, SameStatic.refl _, ⟨_, rfl, ?_⟩⟩
      · rw [posted_append, posted_closingTxs, List.append_nil]
      · intro t ht
        have := closingTxs_closing _ _ _ _ t ht
        exact ⟨this.1, this.2.1⟩
  · simp only [Except.ok.injEq] at h
    subst h
    exact ⟨rfl, rfl, SameStatic.refl _, ⟨[], by simp, by simp⟩⟩

/-- `k` successive periods of one entity -/
def entLoop : Nat → Clock → Entity → Res Entity
  | 0, _, e => .ok e
  | k + 1, clk, e => match e.run clk with
    | .error err => .error err
    | .ok e' => entLoop k clk.tick e'

theorem clockAt_tick (clk : Clock) (i : Nat) : (clockAt clk i).tick = clockAt clk (i + 1) := rfl

theorem entLoop_spec (clk : Clock) (n : Nat) (cs : List Component) (hl : LoansOk (activitiesOfList cs)) :
    ∀ (k i : Nat) (e e' : Entity), e.components = compsStateAt i cs → e.periodCount = n → i + k ≤ n →
      entLoop k (clockAt clk i) e = .ok e' →
      e'.components = compsStateAt (i + k) cs ∧ SameStatic e e' ∧
      posted e'.transactions = posted e.transactions ++
        (List.range' i k).flatMap (fun j => (activitiesOfList cs).flatMap (fun a => txsAt clk a j)) := by
  intro k
  induction k with
  | zero =>
    intro i e e' hc hp hle h
    simp only [entLoop, Except.ok.injEq] at h
    subst h
    exact ⟨hc, SameStatic.refl _, by simp⟩
  | succ k ih =>
    intro i e e' hc hp hle h
    simp only [entLoop] at h
    split at h
    · simp at h
    · rename_i e1 h1
      unfold Entity.run at h1
      have hlt : ¬ ((clockAt clk i).ix : Int) ≥ e.periodCount := by
        rw [hp]; show ¬ ((i : Nat) : Int) ≥ n; omega
      rw [if_neg hlt] at h1
      simp only at h1
      rw [hc, comps_run clk i cs hl] at h1
      obtain ⟨g1, g2, g3, _⟩ := yearEnd_frame h1
      simp only at g1 g2
      rw [clockAt_tick] at h
      have hp1 : e1.periodCount = n := g3.2.2.2.2.2.trans hp
      obtain ⟨r1, r2, r3⟩ := ih (i + 1) e1 e' g1 hp1 (by omega) h
      refine ⟨by rw [r1]; congr 1; omega, ?_, ?_⟩
      · exact SameStatic.trans (a := e) (b := e1) g3 r2
      · rw [r3, g2, posted_append, posted_txs, List.range'_succ, List.flatMap_cons, List.append_assoc]

theorem runEntities_iff (clk : Clock) (es es' : List Entity) :
    runEntities clk es = .ok es' ↔ List.Forall₂ (fun e e' => e.run clk = .ok e') es es' := by
  induction es generalizing es' with
  | nil =>
    simp only [runEntities, Except.ok.injEq]
    exact ⟨fun h => h ▸ .nil, fun h => by cases h; rfl⟩
  | cons e es ih =>
    simp only [runEntities]
    cases h : e.run clk with
    | error err =>
      simp only [reduceCtorEq, false_iff]
      intro hf; cases hf with | cons h1 _ => rw [h] at h1; simp at h1
    | ok e1 =>
      cases hr : runEntities clk es with
      | error err =>
        simp only [reduceCtorEq, false_iff]
        intro hf; cases hf with | cons h1 h2 => rw [(ih _).2 h2] at hr; simp at hr
      | ok es1 =>
        simp only [Except.ok.injEq]
        constructor
        · rintro rfl; exact .cons h ((ih _).1 hr)
        · intro hf
          cases hf with
          | cons h1 h2 =>
            rw [h] at h1; simp at h1; subst h1
            rw [(ih _).2 h2] at hr; simp at hr; subst hr; rfl

theorem loop_iff (k : Nat) : ∀ (clk clk' : Clock) (es es' : List Entity),
    loop k clk es = .ok (clk', es') ↔
      clk' = { clk with ix := clk.ix + k } ∧ List.Forall₂ (fun e e' => entLoop k clk e = .ok e') es es' := by
  induction k with
  | zero =>
    intro clk clk' es es'
    simp only [loop, Except.ok.injEq, Prod.mk.injEq, entLoop, Nat.add_zero]
    constructor
    · rintro ⟨rfl, rfl⟩; exact ⟨rfl, by induction es with | nil => exact .nil | cons e es ih => exact .cons rfl ih⟩
    · rintro ⟨rfl, h⟩
      refine ⟨rfl, ?_⟩
      induction h with
      | nil => rfl
      | cons h1 _ ih => rw [h1, ih]
  | succ k ih =>
    intro clk clk' es es'
    simp only [loop]
    cases hr : runEntities clk es with
    | error err =>
      simp only [reduceCtorEq, false_iff]
      rintro ⟨_, hf⟩
      have : ∃ es1, List.Forall₂ (fun e e' => e.run clk = .ok e') es es1 := by
        clear hr
        induction hf with
        | nil => exact ⟨[], .nil⟩
        | @cons e e' es es' h1 _ ih2 =>
          obtain ⟨es1, h2⟩ := ih2
          simp only [entLoop] at h1
          split at h1
          · simp at h1
          · rename_i e1 he1; exact ⟨e1 :: es1, .cons he1 h2⟩
      obtain ⟨es1, h1⟩ := this
      rw [(runEntities_iff _ _ _).2 h1] at hr
      simp at hr
    | ok es1 =>
      simp only
      rw [ih]
      have hf := (runEntities_iff _ _ _).1 hr
      have e1 : ({ clk.tick with ix := clk.tick.ix + k } : Clock) = { clk with ix := clk.ix + (k + 1) } := by
        simp [Clock.tick]; omega
      rw [e1]
      constructor
      · rintro ⟨h1, h2⟩
        refine ⟨h1, ?_⟩
        clear hr e1 h1
        induction hf generalizing es' with
        | nil => cases h2; exact .nil
        | cons g1 _ ih2 =>
          cases h2 with
          | cons k1 k2 => exact .cons (by simp only [entLoop, g1]; exact k1) (ih2 _ k2)
      · rintro ⟨h1, h2⟩
        refine ⟨h1, ?_⟩
        clear hr e1 h1
        induction hf generalizing es' with
        | nil => cases h2; exact .nil
        | cons g1 _ ih2 =>
          cases h2 with
          | cons k1 k2 => exact .cons (by simp only [entLoop, g1] at k1; exact k1) (ih2 _ k2)

theorem forall₂_map_left {α β γ : Type} {R : β → γ → Prop} {f : α → β} {l : List α} {l' : List γ}
    (h : List.Forall₂ R (l.map f) l') : List.Forall₂ (fun a c => R (f a) c) l l' := by
  induction l generalizing l' with
  | nil => cases h; exact .nil
  | cons a l ih => cases h with | cons h1 h2 => exact .cons h1 (ih h2)

theorem forall₂_imp {α γ : Type} {R S : α → γ → Prop} {l : List α} {l' : List γ} (hRS : ∀ a ∈ l, ∀ c, R a c → S a c)
    (h : List.Forall₂ R l l') : List.Forall₂ S l l' := by
  induction h with
  | nil => exact .nil
  | cons h1 _ ih => exact .cons (hRS _ (by simp) _ h1) (ih (fun a ha => hRS a (by simp [ha])))

theorem run_iff (m m' : Model) : m.run = .ok m' ↔
    m'.name = m.name ∧ m'.periodCount = m.periodCount ∧ m'.clock = clockAt m.clock m.periodCount ∧
    List.Forall₂ (fun e e' => entLoop m.periodCount (clockAt m.clock 0) (e.prepare (clockAt m.clock 0) m.periodCount) = .ok e')
      m.entities m'.entities := by
  have e0 : m.clock.reset = clockAt m.clock 0 := rfl
  unfold Model.run
  simp only [Model.prepare, e0]
  cases h : loop m.periodCount (clockAt m.clock 0) (m.entities.map (Entity.prepare (clockAt m.clock 0) m.periodCount)) with
  | error err =>
    simp only [reduceCtorEq, false_iff]
    rintro ⟨h1, h2, h3, h4⟩
    have h4' : List.Forall₂ (fun e e' => entLoop m.periodCount (clockAt m.clock 0) e = .ok e')
      (m.entities.map (Entity.prepare (clockAt m.clock 0) m.periodCount)) m'.entities := by
      clear h
      generalize m'.entities = es' at h4
      generalize m.entities = es at h4
      induction h4 with
      | nil => exact .nil
      | cons g1 _ ih => exact .cons g1 ih
    rw [(loop_iff _ _ (clockAt m.clock 0 |> fun c => { c with ix := c.ix + m.periodCount }) _ _).2 ⟨rfl, h4'⟩] at h
    simp at h
  | ok r =>
    obtain ⟨clk', es'⟩ := r
    obtain ⟨g1, g2⟩ := (loop_iff _ _ _ _ _).1 h
    simp only [Except.ok.injEq]
    have g2' := forall₂_map_left g2
    constructor
    · rintro rfl
      refine ⟨rfl, rfl, ?_, g2'⟩
      rw [g1]; simp [clockAt]
    · rintro ⟨h1, h2, h3, h4⟩
      obtain ⟨n', c', p', es2⟩ := m'
      simp only at h1 h2 h3 h4
      have : es2 = es' := by
        clear h g2
        generalize m.entities = l at g2' h4
        induction g2' generalizing es2 with
        | nil => cases h4; rfl
        | cons k1 _ ih =>
          cases h4 with
          | cons j1 j2 =>
            rw [k1] at j1; simp at j1
            rw [j1, ih _ j2]
      subst this
      rw [h1, h2, h3, g1]; simp [clockAt]

/-- Preparing an entity after a run gives the same prepared entity. -/
theorem entity_absorb {e : Entity} (clk : Clock) (n : Nat) (hl : LoansOk (activitiesOfList e.components)) (e' : Entity)
    (h : entLoop n (clockAt clk 0) (Entity.prepare (clockAt clk 0) n e) = .ok e') :
    Entity.prepare (clockAt clk 0) n e' = Entity.prepare (clockAt clk 0) n e := by
  have hl' : LoansOk (activitiesOfList (prepareComponents (clockAt clk 0) n e.components)) := by
    rw [activitiesOfList_prepare]; exact loansOk_prepare _ _ _ hl
  obtain ⟨g1, g2, _⟩ := entLoop_spec clk n (prepareComponents (clockAt clk 0) n e.components) hl' n 0
    (Entity.prepare (clockAt clk 0) n e) e' (comps_zero _ _ _).symm rfl (by omega) h
  obtain ⟨s1, s2, s3, s4, s5, s6⟩ := g2
  have hc := comps_absorb (clockAt clk 0) n (0 + n) e.components
  rw [← g1] at hc
  unfold Entity.prepare at *
  rw [hc]
  simp only at s1 s2 s3 s4
  rw [s1, s2, s3, s4]

end Auxi.Business
