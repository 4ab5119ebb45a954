import Verif.Spec.RunReports
import Verif.Props.YearEndTransit
import Verif.Props.RunState

namespace Auxi.RunReports
open Auxi Auxi.Ledger Auxi.Business Auxi.Business.Spec Auxi.RunReports.Spec Time Calendar

/-- The accounts of a chart exist. -/
abbrev Has (c : Chart) (p : Str) : Prop := (accountAt c p).isSome = true

/-- An activity whose accounts exist and that debits no revenue account outside trading. -/
structure Safe (c : Chart) (a : Activity) : Prop where
  accounts : ∀ p ∈ a.referencedAccounts, Has c p
  debits : ∀ p ∈ debited a, ¬ PlainRevenue c p

theorem safe_prepare {c : Chart} {a : Activity} (clk : Clock) (n : Nat) (h : Safe c a) : Safe c (a.prepare clk n) := by
  have h1 : (a.prepare clk n).referencedAccounts = a.referencedAccounts := by
    unfold Activity.referencedAccounts Activity.prepare Kind.reset
    cases a.kind <;> rfl
  have h2 : debited (a.prepare clk n) = debited a := by
    unfold debited Activity.prepare Kind.reset
    cases a.kind <;> rfl
  exact ⟨by rw [h1]; exact h.accounts, by rw [h2]; exact h.debits⟩

theorem run_safe {c : Chart} {a : Activity} (clk : Clock) (h : Safe c a) : Safe c (a.run clk).1 ∧
    ∀ t ∈ (a.run clk).2, Has c t.cr ∧ Has c t.dt ∧ ¬ PlainRevenue c t.dt := by
  obtain ⟨h1, h2⟩ := h
  unfold Activity.run
  split
  · exact ⟨⟨h1, h2⟩, by simp⟩
  · unfold Activity.referencedAccounts at h1
    unfold debited at h2
    split
    · rename_i hk
      rw [hk] at h1 h2
      refine ⟨⟨?_, ?_⟩, ?_⟩
      · unfold Activity.referencedAccounts; rw [hk]; exact h1
      · unfold debited; rw [hk]; exact h2
      · intro t ht
        simp only [List.mem_singleton] at ht
        subst ht
        exact ⟨h1 _ (by simp), h1 _ (by simp), h2 _ (by simp)⟩
    · rename_i hk
      rw [hk] at h1 h2
      split
      · refine ⟨⟨h1, h2⟩, ?_⟩
        intro t ht
        simp only [List.mem_singleton] at ht
        subst ht
        exact ⟨h1 _ (by simp), h1 _ (by simp), h2 _ (by simp)⟩
      · refine ⟨⟨h1, h2⟩, ?_⟩
        intro t ht
        simp only [List.mem_cons, List.not_mem_nil, or_false] at ht
        rcases ht with rfl | rfl
        · exact ⟨h1 _ (by simp), h1 _ (by simp), h2 _ (by simp)⟩
        · exact ⟨h1 _ (by simp), h1 _ (by simp), h2 _ (by simp)⟩

theorem runActs_safe {c : Chart} (clk : Clock) : ∀ (l : List Activity), (∀ a ∈ l, Safe c a) → (∀ a ∈ (runActivities clk l).1, Safe c a) ∧
    ∀ t ∈ (runActivities clk l).2, Has c t.cr ∧ Has c t.dt ∧ ¬ PlainRevenue c t.dt := by
  intro l
  induction l with
  | nil => intro _; simp [runActivities]
  | cons a l ih =>
    intro h
    obtain ⟨h1, h2⟩ := run_safe clk (h a (by simp))
    obtain ⟨i1, i2⟩ := ih (fun x hx => h x (by simp [hx]))
    simp only [runActivities, List.mem_cons, List.mem_append]
    exact ⟨fun x hx => by rcases hx with rfl | hx; exacts [h1, i1 x hx], fun x hx => by rcases hx with hx | hx; exacts [h2 x hx, i2 x hx]⟩

mutual
theorem comp_safe {c : Chart} (clk : Clock) : ∀ (x : Component), (∀ a ∈ activitiesOf x, Safe c a) → (∀ a ∈ activitiesOf (x.run clk).1, Safe c a) ∧
    ∀ t ∈ (x.run clk).2, Has c t.cr ∧ Has c t.dt ∧ ¬ PlainRevenue c t.dt
  | ⟨nm, d, pp, p, cs, as⟩, h => by
    obtain ⟨h1, h2⟩ := comps_safe clk cs (fun a ha => h a (by simp [activitiesOf, ha]))
    obtain ⟨g1, g2⟩ := runActs_safe clk as (fun a ha => h a (by simp [activitiesOf, ha]))
    simp only [Component.run, activitiesOf, List.mem_append]
    exact ⟨fun x hx => by rcases hx with hx | hx; exacts [h1 x hx, g1 x hx], fun x hx => by rcases hx with hx | hx; exacts [h2 x hx, g2 x hx]⟩
theorem comps_safe {c : Chart} (clk : Clock) : ∀ (l : List Component), (∀ a ∈ activitiesOfList l, Safe c a) → (∀ a ∈ activitiesOfList (runComponents clk l).1, Safe c a) ∧
    ∀ t ∈ (runComponents clk l).2, Has c t.cr ∧ Has c t.dt ∧ ¬ PlainRevenue c t.dt
  | [], _ => by simp [runComponents, activitiesOfList]
  | x :: l, h => by
    obtain ⟨h1, h2⟩ := comp_safe clk x (fun a ha => h a (by simp [activitiesOfList, ha]))
    obtain ⟨g1, g2⟩ := comps_safe clk l (fun a ha => h a (by simp [activitiesOfList, ha]))
    simp only [runComponents, activitiesOfList, List.mem_append]
    exact ⟨fun x hx => by rcases hx with hx | hx; exacts [h1 x hx, g1 x hx], fun x hx => by rcases hx with hx | hx; exacts [h2 x hx, g2 x hx]⟩
end

/-- The keys of the dictionaries of the year end are accounts of the chart. -/
def Keys (c : Chart) (w : WriteOff) : Prop := (∀ k ∈ w.gross, Has c k.1.path) ∧ ∀ k ∈ w.inc, Has c k.1.path

theorem keys_add {c : Chart} {k : Ref} {v : ℚ} {d : Dict Ref} (hk : Has c k.path) (h : ∀ e ∈ d, Has c e.1.path) : ∀ e ∈ dictAdd k v d, Has c e.1.path := by
  intro e he
  rcases keys_dictAdd k v d e he with hx | ⟨e', he', hx⟩
  · rw [hx]; exact hk
  · rw [← hx]; exact h e' he'

theorem getRef_has {c : Chart} (gc : GoodChart c) {p : Str} (h : Has c p) : ∃ r, getRef c.str p = .ok (some r) ∧ Has c r.path := by
  obtain ⟨a, ha⟩ := Option.isSome_iff_exists.1 h
  obtain ⟨r, r1, r2, _⟩ := Business.Props.ref_of_account ha
  exact ⟨r, r1, by rw [gc.path p r r2]; exact h⟩

theorem classify_keys {c : Chart} (gc : GoodChart c) {w w' : WriteOff} {t : Tx} (h1 : Has c t.cr) (h2 : Has c t.dt) (hw : Keys c w) (h : classify c w t = .ok w') : Keys c w' := by
  obtain ⟨k, k1, k2⟩ := getRef_has gc h1
  obtain ⟨d, d1, d2⟩ := getRef_has gc h2
  unfold classify at h
  rw [k1, d1] at h
  simp only [bind, Except.bind, pure, Except.pure, throw, throwThe, MonadExceptOf.throw] at h
  split at h
  · simp only [Except.ok.injEq] at h; subst h; exact ⟨keys_add k2 hw.1, hw.2⟩
  · split at h
    · simp only [Except.ok.injEq] at h; subst h; exact ⟨keys_add d2 hw.1, hw.2⟩
    · split at h
      · simp only [Except.ok.injEq] at h; subst h; exact ⟨keys_add k2 hw.1, hw.2⟩
      · split at h
        · simp only [Except.ok.injEq] at h; subst h; exact ⟨keys_add d2 hw.1, hw.2⟩
        · split at h
          · simp only [Except.ok.injEq] at h; subst h; exact ⟨hw.1, keys_add k2 hw.2⟩
          · split at h
            · split at h
              · simp only [Except.ok.injEq] at h; subst h; exact ⟨hw.1, keys_add d2 hw.2⟩
              · cases h
            · split at h
              · simp only [Except.ok.injEq] at h; subst h; exact ⟨hw.1, keys_add k2 hw.2⟩
              · split at h
                · simp only [Except.ok.injEq] at h; subst h; exact ⟨hw.1, keys_add d2 hw.2⟩
                · simp only [Except.ok.injEq] at h; subst h; exact hw

theorem classifyAll_keys {c : Chart} (gc : GoodChart c) : ∀ (txs : List Tx) {w w' : WriteOff}, (∀ t ∈ txs, Has c t.cr ∧ Has c t.dt) → Keys c w → classifyAll c w txs = .ok w' → Keys c w' := by
  intro txs
  induction txs with
  | nil => intro w w' _ hw h; simp [classifyAll] at h; subst h; exact hw
  | cons t txs ih =>
    intro w w' ht hw h
    unfold classifyAll at h
    split at h
    · cases h
    · rename_i w1 h1
      exact ih (fun x hx => ht x (by simp [hx])) (classify_keys gc (ht t (by simp)).1 (ht t (by simp)).2 hw h1) h

theorem gross_has {c : Chart} (hg : Has c c.grossProf) (src : Str) (date : Int) : ∀ (d : Dict Ref), (∀ k ∈ d, Has c k.1.path) → ∀ t ∈ grossClosings c src date d, Has c t.cr ∧ Has c t.dt := by
  intro d
  induction d with
  | nil => simp [grossClosings]
  | cons e d ih =>
    intro h t ht
    obtain ⟨acc, amount⟩ := e
    have ha := h (acc, amount) (by simp)
    simp only [grossClosings, List.mem_append] at ht
    rcases ht with ht | ht
    · split at ht
      · simp only [List.mem_singleton] at ht; subst ht; exact ⟨ha, hg⟩
      · split at ht
        · simp only [List.mem_singleton] at ht; subst ht; exact ⟨hg, ha⟩
        · simp at ht
    · exact ih (fun x hx => h x (by simp [hx])) t ht

theorem inc_has {c : Chart} (hg : Has c c.incSum) (src : Str) (date : Int) : ∀ (d : Dict Ref), (∀ k ∈ d, Has c k.1.path) → ∀ t ∈ incClosings c src date d, Has c t.cr ∧ Has c t.dt := by
  intro d
  induction d with
  | nil => simp [incClosings]
  | cons e d ih =>
    intro h t ht
    obtain ⟨acc, amount⟩ := e
    have ha := h (acc, amount) (by simp)
    simp only [incClosings, List.mem_append] at ht
    rcases ht with ht | ht
    · split at ht
      · split at ht
        · simp only [List.mem_singleton] at ht; subst ht; exact ⟨ha, hg⟩
        · simp only [List.mem_singleton] at ht; subst ht; exact ⟨hg, ha⟩
      · split at ht
        · split at ht
          · simp only [List.mem_singleton] at ht; subst ht; exact ⟨hg, ha⟩
          · simp only [List.mem_singleton] at ht; subst ht; exact ⟨ha, hg⟩
        · simp at ht
    · exact ih (fun x hx => h x (by simp [hx])) t ht

theorem closing_has {c : Chart} (hc : Complete c) (src : Str) (date : Int) {w : WriteOff} (hw : Keys c w) : ∀ t ∈ closingTxs c src date w, Has c t.cr ∧ Has c t.dt := by
  obtain ⟨-, g, i, r⟩ := hc
  intro t ht
  simp only [closingTxs, List.mem_append] at ht
  rcases ht with ((ht | ht) | ht) | ht
  · exact gross_has g src date _ hw.1 t ht
  · exact inc_has i src date _ hw.2 t ht
  · unfold grossSettle at ht
    split at ht
    · simp only [List.mem_singleton] at ht; subst ht; exact ⟨i, g⟩
    · split at ht
      · simp only [List.mem_singleton] at ht; subst ht; exact ⟨g, i⟩
      · simp at ht
  · unfold retainedClosings at ht
    split at ht
    · simp only [List.mem_singleton] at ht; subst ht; exact ⟨r, i⟩
    · split at ht
      · simp only [List.mem_singleton] at ht; subst ht; exact ⟨i, r⟩
      · simp at ht

/-- What is known of an entity during a run of `n` periods. -/
structure EInv (clk : Clock) (n : Nat) (c : Chart) (e : Entity) : Prop where
  chart : e.chart = c
  count : e.periodCount = n
  horizon : e.execYearEnd = clk.atIx n
  order : e.prevYearEnd ≤ e.currYearEnd
  acts : ∀ a ∈ activitiesOfList e.components, Safe c a
  txs : ∀ t ∈ e.transactions, Has c t.cr ∧ Has c t.dt ∧ (t.date < e.prevYearEnd ∨ ¬ PlainRevenue c t.dt)

theorem einv_prepare {clk : Clock} {n : Nat} {e : Entity} (h : ∀ a ∈ activitiesOfList e.components, Safe e.chart a) : EInv clk n e.chart (e.prepare (clockAt clk 0) n) := by
  refine ⟨rfl, rfl, rfl, ?_, ?_, ?_⟩
  · have := RunState.addYears_day clk.start
    show clk.start ≤ addYears clk.start 1
    unfold dayUs at this
    omega
  · intro a ha
    show Safe e.chart a
    have : a ∈ activitiesOfList (prepareComponents (clockAt clk 0) n e.components) := ha
    rw [activitiesOfList_prepare, List.mem_map] at this
    obtain ⟨b, hb, rfl⟩ := this
    exact safe_prepare _ _ (h b hb)
  · intro t ht; simp [Entity.prepare] at ht

theorem einv_run {clk : Clock} {n i : Nat} {c : Chart} {e : Entity} (hc : Complete c) (hi : i < n) (h : EInv clk n c e) :
    ∃ e', e.run (clockAt clk i) = .ok e' ∧ EInv clk n c e' := by
  obtain ⟨rfl, h2, h3, h4, h5, h6⟩ := h
  have gc := Business.Props.reachable_good hc.1
  obtain ⟨s1, s2⟩ := comps_safe (clockAt clk i) e.components h5
  have hix : ((clockAt clk i).ix : Int) = i := rfl
  have en : (clockAt clk i).now = clk.atIx i := rfl
  have hlt : clk.atIx i < clk.atIx n := atIx_strict clk (by omega)
  have htx : ∀ t ∈ e.transactions ++ (runComponents (clockAt clk i) e.components).2, Has e.chart t.cr ∧ Has e.chart t.dt ∧ (t.date < e.prevYearEnd ∨ ¬ PlainRevenue e.chart t.dt) := by
    intro t ht
    rw [List.mem_append] at ht
    rcases ht with ht | ht
    · exact h6 t ht
    · exact ⟨(s2 t ht).1, (s2 t ht).2.1, .inr (s2 t ht).2.2⟩
  unfold Entity.run
  rw [if_neg (by rw [hix, h2]; omega)]
  dsimp only
  unfold Entity.yearEnd
  split
  · rename_i hcl
    have hcl' : e.currYearEnd ≤ clk.atIx i := by
      rcases hcl with hcl | hcl
      · exact hcl
      · rw [hix] at hcl
        have : (i : Int) = e.periodCount := hcl
        rw [h2] at this
        omega
    obtain ⟨w, hw⟩ := Business.Props.C37_succeeds_partial e.chart hc.1
      (Entity.yearTxs { e with components := (runComponents (clockAt clk i) e.components).1, transactions := e.transactions ++ (runComponents (clockAt clk i) e.components).2 }) ⟨[], []⟩
      (fun t ht => by
        have := htx t (List.mem_filter.1 ht).1
        exact ⟨this.1, this.2.1⟩)
      (fun t ht a ha ht' => by
        have hm := List.mem_filter.1 ht
        have hd := of_decide_eq_true hm.2
        rcases (htx t hm.1).2.2 with hx | hx
        · exact absurd hd.1 (by show ¬ e.prevYearEnd ≤ t.date; omega)
        · by_contra hne
          exact hx ⟨⟨a, ha, ht'⟩, by simpa using hne⟩)
    have hk := classifyAll_keys gc _ (fun t ht => by
        have := htx t (List.mem_filter.1 ht).1
        exact ⟨this.1, this.2.1⟩) (show Keys e.chart ⟨[], []⟩ from ⟨by simp, by simp⟩) hw
    rw [hw]
    refine ⟨_, rfl, rfl, h2, h3, ?_, s1, ?_⟩
    · show e.currYearEnd ≤ (if addYears e.currYearEnd 1 > e.execYearEnd then e.execYearEnd else addYears e.currYearEnd 1)
      rw [h3]
      split
      · omega
      · have := RunState.addYears_day e.currYearEnd; unfold dayUs at this; omega
    · intro t ht
      rw [List.mem_append] at ht
      rcases ht with ht | ht
      · obtain ⟨a1, a2, a3⟩ := htx t ht
        refine ⟨a1, a2, ?_⟩
        rcases a3 with a3 | a3
        · left
          show t.date < e.currYearEnd
          omega
        · exact .inr a3
      · have hh := closing_has hc _ _ hk t ht
        refine ⟨hh.1, hh.2, .inl ?_⟩
        rw [(closingTxs_closing _ _ _ _ t ht).2.1]
        show e.currYearEnd - 1000000 < e.currYearEnd
        omega
  · exact ⟨_, rfl, rfl, h2, h3, h4, s1, htx⟩

theorem einv_loop {clk : Clock} {n : Nat} {c : Chart} (hc : Complete c) : ∀ (k i : Nat) (e : Entity), i + k ≤ n → EInv clk n c e →
    ∃ e', entLoop k (clockAt clk i) e = .ok e' ∧ EInv clk n c e' := by
  intro k
  induction k with
  | zero => intro i e _ h; exact ⟨e, rfl, h⟩
  | succ k ih =>
    intro i e hi h
    obtain ⟨e1, r1, h1⟩ := einv_run (i := i) hc (by omega) h
    obtain ⟨e2, r2, h2⟩ := ih (i + 1) e1 (by omega) h1
    refine ⟨e2, ?_, h2⟩
    unfold entLoop
    rw [r1]
    exact r2

/-- A model with complete charts and safe activities runs to the end. -/
theorem model_runs (m : Model) (h : ∀ e ∈ m.entities, Complete e.chart ∧ ∀ a ∈ activitiesOfList e.components, Safe e.chart a) :
    ∃ m', m.run = .ok m' ∧ List.Forall₂ (fun e e' => EInv m.clock m.periodCount e.chart e') m.entities m'.entities := by
  have key : ∀ es : List Entity, (∀ e ∈ es, Complete e.chart ∧ ∀ a ∈ activitiesOfList e.components, Safe e.chart a) →
      ∃ es', List.Forall₂ (fun e e' => entLoop m.periodCount (clockAt m.clock 0) (e.prepare (clockAt m.clock 0) m.periodCount) = .ok e') es es' ∧
        List.Forall₂ (fun e e' => EInv m.clock m.periodCount e.chart e') es es' := by
    intro es
    induction es with
    | nil => intro _; exact ⟨[], .nil, .nil⟩
    | cons e es ih =>
      intro hh
      obtain ⟨es', i1, i2⟩ := ih (fun x hx => hh x (by simp [hx]))
      obtain ⟨hc, ha⟩ := hh e (by simp)
      obtain ⟨e', r, g⟩ := einv_loop (clk := m.clock) (n := m.periodCount) hc m.periodCount 0 _ (by omega) (einv_prepare ha)
      exact ⟨e' :: es', .cons r i1, .cons g i2⟩
  obtain ⟨es', k1, k2⟩ := key m.entities h
  exact ⟨{ m with clock := clockAt m.clock m.periodCount, entities := es' }, (run_iff _ _).2 ⟨rfl, rfl, rfl, k1⟩, k2⟩

theorem wf_acts {s : Structure} {p : Str} {c : Component} (h : CompWF s p c) : ∀ a ∈ activitiesOf c, ∀ n ∈ a.referencedAccounts, (Ledger.Spec.walk s.accounts (Ledger.Spec.segments n)).isSome := by
  have listed : ∀ (l : List Component) (P : Activity → Prop), (∀ c ∈ l, ∀ a ∈ activitiesOf c, P a) → ∀ a ∈ activitiesOfList l, P a := by
    intro l P
    induction l with
    | nil => simp [activitiesOfList]
    | cons c l ih =>
      intro hh a ha
      simp only [activitiesOfList, List.mem_append] at ha
      rcases ha with ha | ha
      · exact hh c (by simp) a ha
      · exact ih (fun x hx => hh x (by simp [hx])) a ha
  induction h with
  | @mk p c _ _ _ h4 ih =>
    obtain ⟨nm, d, pp, pa, cs, as⟩ := c
    intro a ha
    simp only [activitiesOf, List.mem_append] at ha
    rcases ha with ha | ha
    · exact listed cs _ ih a ha
    · exact (h4 a ha).2.2

theorem wf_listed {e : Entity} (h : EntWF e) : ∀ a ∈ activitiesOfList e.components, ∀ n ∈ a.referencedAccounts, Has e.chart n := by
  have : ∀ l : List Component, (∀ c ∈ l, CompWF e.chart.str e.path c) → ∀ a ∈ activitiesOfList l, ∀ n ∈ a.referencedAccounts, Has e.chart n := by
    intro l
    induction l with
    | nil => simp [activitiesOfList]
    | cons c l ih =>
      intro hh a ha
      simp only [activitiesOfList, List.mem_append] at ha
      rcases ha with ha | ha
      · exact wf_acts (hh c (by simp)) a ha
      · exact ih (fun x hx => hh x (by simp [hx])) a ha
  exact this _ h.2

end Auxi.RunReports
