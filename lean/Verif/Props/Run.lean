import Verif.Props.Activity
/-! # Properties of model runs: C22–C25 -/
namespace Auxi.Business.Props
open Auxi.Business Spec Time Calendar Ledger

theorem foldlM_entLoop (clk : Clock) : ∀ (k i : Nat) (e : Entity),
    (List.range' i k).foldlM (fun e j => e.run (clockAt clk j)) e = entLoop k (clockAt clk i) e := by
  intro k
  induction k with
  | zero => intro i e; rfl
  | succ k ih =>
    intro i e
    rw [List.range'_succ, List.foldlM_cons]
    simp only [entLoop]
    cases h : e.run (clockAt clk i) with
    | error err => rfl
    | ok e' => exact ih (i + 1) e'

theorem runEntityFor_eq (clk : Clock) (n : Nat) (e : Entity) :
    runEntityFor clk n e = entLoop n (clockAt clk 0) (e.prepare (clockAt clk 0) n) := by
  rw [runEntityFor, List.range_eq_range', foldlM_entLoop]

/-! ## A sample model -/

/-- the chart of a structure to which some accounts were added -/
def chart0 : Chart := { Chart.new "GL".toList with str := { Structure.new "GL".toList with accounts := runOps [
  .create [1] "Ore".toList none none, .create [2] "Coke".toList none none, .create [3] "Rent".toList none none,
  .create [4] "Interest".toList none none, .create [10] "Loan".toList none none] } }

/-- an entity with a nested component, two activities and a loan -/
def ent0 : Entity :=
  let e := (Entity.new "Plant".toList chart0).createComponent "Sales".toList none
  let c : Component := { (Component.new "Furnace".toList none) with
    components := [{ (Component.new "Tap".toList none) with activities := [actB.setParentPath "/Furnace/Tap".toList] }] }
  let sub : Component := { (Component.new "Sub".toList none) with activities := [actL'.setParentPath "/Sub".toList] }
  { e with components := e.components ++ [c, sub] }

/-- a model with two entities, monthly clock, 30 periods (two year ends) -/
def mod0 : Model := ⟨"M".toList, clkM, 30, [ent0, Entity.new "Empty".toList (Chart.new "GL2".toList)]⟩

/-! ## Runs -/

/-- **C22, C25.** A run succeeds exactly when every entity, run alone period by period `0, 1, …, n-1` from its
preparation, succeeds; the entities of the result are exactly those results, in order; the clock ends in period `n`
and nothing else changes. In particular no entity's result depends on another entity. -/
theorem C22_run_is_entities_run (m m' : Model) : m.run = .ok m' ↔
    m'.name = m.name ∧ m'.periodCount = m.periodCount ∧ m'.clock = clockAt m.clock m.periodCount ∧
    List.Forall₂ (fun e e' => runEntityFor m.clock m.periodCount e = .ok e') m.entities m'.entities := by
  rw [run_iff]
  simp only [runEntityFor_eq]

/-- **C22 (ledgers).** After a run each entity's ledger contains, apart from year end closing transactions, exactly
what its activities (sub-components first, in creation order) should post in period 0, then in period 1, and so on. -/
theorem C22_ledger (m m' : Model) (h : m.run = .ok m') (hl : ∀ e ∈ m.entities, LoansOk (activitiesOfList e.components)) :
    List.Forall₂ (fun e e' => posted e'.transactions =
      expected m.clock m.periodCount ((activitiesOfList e.components).map (Activity.prepare m.clock.reset m.periodCount)))
      m.entities m'.entities := by
  obtain ⟨_, _, _, h4⟩ := (run_iff m m').1 h
  refine forall₂_imp ?_ h4
  intro e he e' hr
  have hl' : LoansOk (activitiesOfList (prepareComponents (clockAt m.clock 0) m.periodCount e.components)) := by
    rw [activitiesOfList_prepare]; exact loansOk_prepare _ _ _ (hl e he)
  obtain ⟨_, _, g3⟩ := entLoop_spec m.clock m.periodCount (prepareComponents (clockAt m.clock 0) m.periodCount e.components) hl'
    m.periodCount 0 (e.prepare (clockAt m.clock 0) m.periodCount) e' (comps_zero _ _ _).symm rfl (by omega) hr
  rw [g3, activitiesOfList_prepare, expected, List.range_eq_range']
  show posted [] ++ _ = _
  simp only [posted, List.filter_nil, List.nil_append]
  rfl

example : (mod0.run).isOk = true ∧ ∀ e ∈ mod0.entities, LoansOk (activitiesOfList e.components) := by
  refine ⟨by decide +kernel, ?_⟩
  intro e he a ha b l i am r p d m lf hk
  have : ∀ e ∈ mod0.entities, ∀ a ∈ activitiesOfList e.components, a.interval ≠ 0 := by decide +kernel
  exact this e he a ha

/-- **C25 (independence).** The result of running an entity in a model is the result of running the model that has
only this entity. -/
theorem C25_entity_alone (m m' : Model) (h : m.run = .ok m') (i : Nat) (e : Entity) (he : m.entities[i]? = some e) :
    ∃ e', m'.entities[i]? = some e' ∧
      ({ m with entities := [e] } : Model).run = .ok { m' with entities := [e'] } := by
  obtain ⟨h1, h2, h3, h4⟩ := (C22_run_is_entities_run m m').1 h
  have : ∀ {l l' : List Entity} {R : Entity → Entity → Prop}, List.Forall₂ R l l' → ∀ {i : Nat} {e : Entity}, l[i]? = some e →
      ∃ e', l'[i]? = some e' ∧ R e e' := by
    intro l l' R hR
    induction hR with
    | nil => intro i e he; simp at he
    | cons hab _ ih =>
      intro i e he
      cases i with
      | zero => simp at he; subst he; exact ⟨_, by simp, hab⟩
      | succ i => simp at he ⊢; exact ih he
  obtain ⟨e', he', hr⟩ := this h4 he
  exact ⟨e', he', (C22_run_is_entities_run _ _).2 ⟨h1, h2, h3, .cons hr .nil⟩⟩

/-- **C25 (own ledger).** In one period an entity appends its component tree's transactions to its own ledger,
followed only by closing transactions; chart, name and path stay. -/
theorem C25_entity_period (e e' : Entity) (clk : Clock) (h : e.run clk = .ok e') :
    ((e.periodCount ≤ clk.ix → e' = e) ∧
     ((clk.ix : Int) < e.periodCount → ∃ closings, e'.transactions = e.transactions ++ (runComponents clk e.components).2 ++ closings ∧
        (∀ t ∈ closings, t.closingCr = true) ∧ e'.components = (runComponents clk e.components).1)) ∧
    e'.chart = e.chart ∧ e'.name = e.name ∧ e'.path = e.path := by
  unfold Entity.run at h
  split at h
  · rename_i hge
    simp only [Except.ok.injEq] at h; subst h
    exact ⟨⟨fun _ => rfl, fun hlt => absurd hge (by omega)⟩, rfl, rfl, rfl⟩
  · rename_i hlt
    obtain ⟨g1, _, g3, cl, g4, g5⟩ := yearEnd_frame h
    exact ⟨⟨fun hge => absurd hge (by omega), fun _ => ⟨cl, g4, fun t ht => (g5 t ht).1, g1⟩⟩, g3.2.2.2.1, g3.1, g3.2.2.1⟩

/-- **C25 (order).** A component runs its sub-components before its own activities, each in creation order. -/
theorem C25_component_order (clk : Clock) (nm : Str) (d : Option Str) (pp p : Str) (cs : List Component) (as : List Activity) :
    (Component.run clk ⟨nm, d, pp, p, cs, as⟩).2 =
      cs.flatMap (fun c => (c.run clk).2) ++ as.flatMap (fun a => (a.run clk).2) := by
  have h1 : ∀ cs, (runComponents clk cs).2 = cs.flatMap (fun c => (c.run clk).2) := by
    intro cs; induction cs with
    | nil => rfl
    | cons c cs ih => simp [runComponents, ih]
  have h2 : ∀ as, (runActivities clk as).2 = as.flatMap (fun a => (a.run clk).2) := by
    intro as; induction as with
    | nil => rfl
    | cons c cs ih => simp [runActivities, ih]
  simp only [Component.run, h1, h2]

/-- **C23.** Running a model again reproduces exactly the same model, ledgers included. -/
theorem C23_rerun (m m' : Model) (h : m.run = .ok m') : m'.run = .ok m' := by
  obtain ⟨h1, h2, h3, h4⟩ := (run_iff m m').1 h
  rw [run_iff]
  refine ⟨rfl, rfl, by rw [h3, h2]; rfl, ?_⟩
  have hc : clockAt m'.clock 0 = clockAt m.clock 0 := by rw [h3]; rfl
  rw [hc, h2]
  clear h3 h
  generalize m'.entities = l' at h4 ⊢
  generalize m.entities = l at h4
  induction h4 with
  | nil => exact .nil
  | @cons e e' l l' hr _ ih =>
    refine .cons ?_ ih
    rw [entity_absorb' _ _ _ _ _ hr]
    exact hr

example : (mod0.run).isOk = true := by decide +kernel

/-! ## Trial balance -/

theorem sum_ite_one (accs : List Str) (hn : accs.Nodup) (x : Str) (hx : x ∈ accs) (v : ℚ) :
    (accs.map (fun a => if x = a then v else 0)).sum = v := by
  induction accs with
  | nil => simp at hx
  | cons a l ih =>
    rw [List.nodup_cons] at hn
    simp only [List.map_cons, List.sum_cons]
    by_cases h : x = a
    · subst h
      have : (l.map (fun a => if x = a then v else 0)).sum = 0 := by
        apply List.sum_eq_zero
        intro y hy
        simp only [List.mem_map] at hy
        obtain ⟨b, hb, rfl⟩ := hy
        have : x ≠ b := fun e => hn.1 (e ▸ hb)
        simp [this]
      simp [this]
    · simp [h, ih hn.2 (by simpa [h] using hx)]

theorem debits_cons (acc : Str) (t : Tx) (txs : List Tx) :
    debits acc (t :: txs) = (if t.dt = acc then t.amount else 0) + debits acc txs := by
  by_cases h : t.dt = acc <;> simp [debits, h]
theorem credits_cons (acc : Str) (t : Tx) (txs : List Tx) :
    credits acc (t :: txs) = (if t.cr = acc then t.amount else 0) + credits acc txs := by
  by_cases h : t.cr = acc <;> simp [credits, h]

theorem sum_map_add' (l : List Str) (f g : Str → ℚ) : (l.map (fun a => f a + g a)).sum = (l.map f).sum + (l.map g).sum := by
  induction l with
  | nil => simp
  | cons a l ih => simp only [List.map_cons, List.sum_cons, ih]; ring

/-- **C24.** For any ledger content and any duplicate free list of accounts that includes the accounts used, total
debits equal total credits (both are the total of the amounts). -/
theorem C24_trial_balance (txs : List Tx) (accs : List Str) (hn : accs.Nodup)
    (hc : ∀ t ∈ txs, t.dt ∈ accs ∧ t.cr ∈ accs) :
    (accs.map (fun a => debits a txs)).sum = (accs.map (fun a => credits a txs)).sum ∧
    (accs.map (fun a => netCredit a txs)).sum = 0 := by
  have h1 : (accs.map (fun a => debits a txs)).sum = (txs.map Tx.amount).sum := by
    induction txs with
    | nil => simp [debits]
    | cons t txs ih =>
      simp only [debits_cons, sum_map_add', List.map_cons, List.sum_cons]
      rw [ih (fun t ht => hc t (by simp [ht])), sum_ite_one accs hn t.dt (hc t (by simp)).1]
  have h2 : (accs.map (fun a => credits a txs)).sum = (txs.map Tx.amount).sum := by
    clear h1
    induction txs with
    | nil => simp [credits]
    | cons t txs ih =>
      simp only [credits_cons, sum_map_add', List.map_cons, List.sum_cons]
      rw [ih (fun t ht => hc t (by simp [ht])), sum_ite_one accs hn t.cr (hc t (by simp)).2]
  refine ⟨h1.trans h2.symm, ?_⟩
  have h3 : ∀ a, netCredit a txs + debits a txs = credits a txs := by
    intro a
    clear h1 h2 hc
    induction txs with
    | nil => simp [netCredit, debits, credits]
    | cons t txs ih =>
      rw [debits_cons, credits_cons, ← ih]
      simp only [netCredit, List.map_cons, List.sum_cons]; ring
  have h4 : (accs.map (fun a => netCredit a txs)).sum + (accs.map (fun a => debits a txs)).sum =
      (accs.map (fun a => credits a txs)).sum := by
    rw [← sum_map_add']; simp only [h3]
  linarith [h4, h1, h2]

/-- **C24 (runs).** In particular for the ledger of every entity after any run. -/
theorem C24_after_run (m m' : Model) (_h : m.run = .ok m') (e : Entity) (_he : e ∈ m'.entities) (accs : List Str)
    (hn : accs.Nodup) (hc : ∀ t ∈ e.transactions, t.dt ∈ accs ∧ t.cr ∈ accs) :
    (accs.map (fun a => netCredit a e.transactions)).sum = 0 := (C24_trial_balance e.transactions accs hn hc).2

example : (mod0.run).map (fun m => m.entities.map (fun e => e.transactions.length)) = .ok [28, 0] := by decide +kernel

end Auxi.Business.Props
