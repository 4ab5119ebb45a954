import Verif.Props.Run
import Verif.Spec.Independence
import Mathlib.Data.List.Basic

/-! # C146: what an activity posts does not depend on the other activities -/
namespace Auxi.Business.Props
open Auxi.Business Auxi.Business.Spec Time Calendar

theorem forall₂_get {α : Type} {R : α → α → Prop} {l l' : List α} (h : List.Forall₂ R l l') : ∀ {i : Nat} {x y : α}, l[i]? = some x → l'[i]? = some y → R x y := by
  induction h with
  | nil => intro i x y hx; simp at hx
  | cons hab _ ih =>
    intro i x y hx hy
    cases i with
    | zero => simp at hx hy; rw [← hx, ← hy]; exact hab
    | succ i => simp at hx hy; exact ih hx hy

theorem posted_of_run {m : Model} {e e' : Entity} (h : RunOf m e e') (hl : ∀ e ∈ m.entities, LoansOk (activitiesOfList e.components)) :
    posted e'.transactions = expected m.clock m.periodCount ((activitiesOfList e.components).map (Activity.prepare m.clock.reset m.periodCount)) := by
  obtain ⟨m', i, h1, h2, h3⟩ := h
  exact forall₂_get (C22_ledger m m' h1 hl) h2 h3

theorem flatMap_perm_append {α β : Type} (f g h : α → List β) : ∀ l : List α, (∀ a ∈ l, (f a).Perm (g a ++ h a)) → (l.flatMap f).Perm (l.flatMap g ++ l.flatMap h) := by
  intro l
  induction l with
  | nil => intro _; exact List.Perm.refl _
  | cons a l ih =>
    intro hh
    simp only [List.flatMap_cons]
    refine ((hh a (by simp)).append (ih (fun x hx => hh x (by simp [hx])))).trans ?_
    rw [List.append_assoc, List.append_assoc]
    refine List.Perm.append_left _ ?_
    rw [← List.append_assoc, ← List.append_assoc]
    exact List.Perm.append_right _ List.perm_append_comm

theorem expected_perm {clk : Clock} {n : Nat} {as bs cs : List Activity} (h : as.Perm (bs ++ cs)) : (expected clk n as).Perm (expected clk n bs ++ expected clk n cs) := by
  unfold expected
  apply flatMap_perm_append
  intro i _
  exact (h.flatMap_right _).trans (by rw [List.flatMap_append])

/-- **C146.** An entity that has the activities of two others, in any components and any order, posts what those two post, and nothing else. -/
theorem C146_add (m m1 m2 : Model) (e e1 e2 e' e1' e2' : Entity) (h : RunOf m e e') (h1 : RunOf m1 e1 e1') (h2 : RunOf m2 e2 e2')
    (hc : m1.clock.reset = m.clock.reset ∧ m2.clock.reset = m.clock.reset) (hn : m1.periodCount = m.periodCount ∧ m2.periodCount = m.periodCount)
    (hl : ∀ x ∈ [m, m1, m2], ∀ e ∈ x.entities, LoansOk (activitiesOfList e.components))
    (ha : (activitiesOfList e.components).Perm (activitiesOfList e1.components ++ activitiesOfList e2.components)) :
    (posted e'.transactions).Perm (posted e1'.transactions ++ posted e2'.transactions) := by
  have hx : ∀ (c d : Clock) (n : Nat) (as : List Activity), c.reset = d.reset → expected c n as = expected d n as := by
    intro c d n as hcd
    have : ∀ c : Clock, expected c n as = expected c.reset n as := fun c => rfl
    rw [this c, this d, hcd]
  rw [posted_of_run h (hl m (by simp)), posted_of_run h1 (hl m1 (by simp)), posted_of_run h2 (hl m2 (by simp)), hn.1, hn.2, hc.1, hc.2, hx m1.clock m.clock _ _ hc.1, hx m2.clock m.clock _ _ hc.2]
  apply expected_perm
  rw [← List.map_append]
  exact ha.map _

/-- **C146.** The order and the place of the activities play no part in what is posted. -/
theorem C146_order (m m1 : Model) (e e1 e' e1' : Entity) (h : RunOf m e e') (h1 : RunOf m1 e1 e1') (hc : m1.clock.reset = m.clock.reset) (hn : m1.periodCount = m.periodCount)
    (hl : ∀ x ∈ [m, m1], ∀ e ∈ x.entities, LoansOk (activitiesOfList e.components)) (ha : (activitiesOfList e.components).Perm (activitiesOfList e1.components)) :
    (posted e'.transactions).Perm (posted e1'.transactions) ∧ ∀ acc, netCredit acc (posted e'.transactions) = netCredit acc (posted e1'.transactions) := by
  have hx : ∀ (c d : Clock) (n : Nat) (as : List Activity), c.reset = d.reset → expected c n as = expected d n as := by
    intro c d n as hcd
    have : ∀ c : Clock, expected c n as = expected c.reset n as := fun c => rfl
    rw [this c, this d, hcd]
  have hp : (posted e'.transactions).Perm (posted e1'.transactions) := by
    rw [posted_of_run h (hl m (by simp)), posted_of_run h1 (hl m1 (by simp)), hn, hc, hx m1.clock m.clock _ _ hc]
    have := expected_perm (clk := m.clock) (n := m.periodCount) (as := (activitiesOfList e.components).map (Activity.prepare m.clock.reset m.periodCount)) (bs := (activitiesOfList e1.components).map (Activity.prepare m.clock.reset m.periodCount)) (cs := []) (by rw [List.append_nil]; exact ha.map _)
    have h0 : expected m.clock m.periodCount [] = [] := by unfold expected; simp
    rwa [h0, List.append_nil] at this
  exact ⟨hp, fun acc => by unfold netCredit; exact (hp.map _).sum_eq⟩

theorem txsAt_source (clk : Clock) (a : Activity) (i : Nat) : ∀ t ∈ txsAt clk a i, t.source = a.path := by
  intro t ht
  unfold txsAt at ht
  split at ht
  · dsimp only at ht
    split at ht
    · simp only [List.mem_singleton] at ht; rw [ht]
    · split at ht
      · simp only [List.mem_singleton] at ht; rw [ht]
      · simp only [List.mem_cons, List.not_mem_nil, or_false] at ht; rcases ht with rfl | rfl <;> rfl
  · simp at ht

theorem filter_txs {clk : Clock} {i : Nat} (p : Str) : ∀ as : List Activity, (as.flatMap (fun a => txsAt clk a i)).filter (fun t => t.source = p) = (as.filter (fun a => a.path = p)).flatMap (fun a => txsAt clk a i) := by
  intro as
  induction as with
  | nil => rfl
  | cons a as ih =>
    rw [List.flatMap_cons, List.filter_append, ih]
    by_cases h : a.path = p
    · rw [List.filter_cons_of_pos (by simpa using h), List.flatMap_cons]
      congr 1
      rw [List.filter_eq_self]
      intro t ht
      simpa using (txsAt_source clk a i t ht).trans h
    · rw [List.filter_cons_of_neg (by simpa using h)]
      have : (txsAt clk a i).filter (fun t => t.source = p) = [] := by
        rw [List.filter_eq_nil_iff]
        intro t ht
        simpa [txsAt_source clk a i t ht] using h
      rw [this]
      rfl

/-- **C146.** The transactions that bear an activity's path are, in this order, those that the activity posts in a model in which it is alone. -/
theorem C146_alone (m m1 : Model) (e e1 e' e1' : Entity) (a : Activity) (h : RunOf m e e') (h1 : RunOf m1 e1 e1') (hc : m1.clock.reset = m.clock.reset) (hn : m1.periodCount = m.periodCount)
    (hl : ∀ x ∈ [m, m1], ∀ e ∈ x.entities, LoansOk (activitiesOfList e.components)) (ha : (activitiesOfList e.components).filter (fun b => b.path = a.path) = [a]) (h0 : activitiesOfList e1.components = [a]) :
    (posted e'.transactions).filter (fun t => t.source = a.path) = posted e1'.transactions := by
  have hx : ∀ (c d : Clock) (n : Nat) (as : List Activity), c.reset = d.reset → expected c n as = expected d n as := by
    intro c d n as hcd
    have : ∀ c : Clock, expected c n as = expected c.reset n as := fun c => rfl
    rw [this c, this d, hcd]
  rw [posted_of_run h (hl m (by simp)), posted_of_run h1 (hl m1 (by simp)), hn, hc, hx m1.clock m.clock _ _ hc, h0]
  unfold expected
  rw [List.filter_flatMap]
  congr 1
  funext i
  rw [filter_txs]
  congr 1
  have hm : ∀ as : List Activity, (as.map (Activity.prepare m.clock.reset m.periodCount)).filter (fun b => b.path = a.path) = (as.filter (fun b => b.path = a.path)).map (Activity.prepare m.clock.reset m.periodCount) := by
    intro as; rw [List.filter_map]; rfl
  rw [hm, ha]

theorem runOf_ok {m : Model} {i : Nat} {e : Entity} (h : m.run.isOk = true) (he : m.entities[i]? = some e) : ∃ e', RunOf m e e' := by
  cases hr : m.run with
  | error x => rw [hr] at h; cases h
  | ok m' =>
    obtain ⟨e', he', -⟩ := C25_entity_alone m m' hr i e he
    exact ⟨e', m', i, hr, he, he'⟩

/-- the furnace alone -/
def entB : Entity := { Entity.new "Plant".toList chart0 with components := [{ (Component.new "Furnace".toList none) with components := [{ (Component.new "Tap".toList none) with activities := [actB.setParentPath "/Furnace/Tap".toList] }] }] }
/-- the loan alone -/
def entL : Entity := { Entity.new "Bank".toList chart0 with components := [{ (Component.new "Sub".toList none) with activities := [actL'.setParentPath "/Sub".toList] }] }
/-- both, the other way round -/
def entLB : Entity := { Entity.new "Plant".toList chart0 with components := entL.components ++ entB.components }
def modOf (e : Entity) : Model := ⟨"M".toList, clkM, 30, [e]⟩

theorem mod0_runs : ∃ e', RunOf mod0 ent0 e' := runOf_ok (i := 0) (by decide +kernel) rfl
theorem modB_runs : ∃ e', RunOf (modOf entB) entB e' := runOf_ok (i := 0) (by decide +kernel) rfl
theorem modL_runs : ∃ e', RunOf (modOf entL) entL e' := runOf_ok (i := 0) (by decide +kernel) rfl
theorem modLB_runs : ∃ e', RunOf (modOf entLB) entLB e' := runOf_ok (i := 0) (by decide +kernel) rfl

theorem loansOk_of {e : Entity} (h : ∀ a ∈ activitiesOfList e.components, a.interval ≠ 0) : LoansOk (activitiesOfList e.components) := fun a ha _ _ _ _ _ _ _ _ _ _ => h a ha

theorem loans_all : ∀ x ∈ [mod0, modOf entB, modOf entL, modOf entLB], ∀ e ∈ x.entities, LoansOk (activitiesOfList e.components) := by
  have h : ∀ x ∈ [mod0, modOf entB, modOf entL, modOf entLB], ∀ e ∈ x.entities, ∀ a ∈ activitiesOfList e.components, a.interval ≠ 0 := by decide +kernel
  exact fun x hx e he => loansOk_of (h x hx e he)

example : ∃ e' e1' e2' : Entity, (posted e'.transactions).Perm (posted e1'.transactions ++ posted e2'.transactions) := by
  obtain ⟨a, ha⟩ := mod0_runs
  obtain ⟨b, hb⟩ := modB_runs
  obtain ⟨c, hc⟩ := modL_runs
  refine ⟨a, b, c, C146_add mod0 (modOf entB) (modOf entL) ent0 entB entL a b c ha hb hc ⟨rfl, rfl⟩ ⟨rfl, rfl⟩ ?_ (by decide +kernel)⟩
  intro x hx
  exact loans_all x (by simp at hx ⊢; tauto)

example : ∃ e' e1' : Entity, (posted e'.transactions).Perm (posted e1'.transactions) := by
  obtain ⟨a, ha⟩ := mod0_runs
  obtain ⟨b, hb⟩ := modLB_runs
  refine ⟨a, b, (C146_order mod0 (modOf entLB) ent0 entLB a b ha hb rfl rfl ?_ (by decide +kernel)).1⟩
  intro x hx
  exact loans_all x (by simp at hx ⊢; tauto)

example : ∃ e' e1' : Entity, (posted e'.transactions).filter (fun t => t.source = "/Furnace/Tap/".toList ++ actB.name) = posted e1'.transactions ∧ e1'.transactions ≠ [] := by
  obtain ⟨a, ha⟩ := mod0_runs
  obtain ⟨b, hb⟩ := modB_runs
  refine ⟨a, b, C146_alone mod0 (modOf entB) ent0 entB a b (actB.setParentPath "/Furnace/Tap".toList) ha hb rfl rfl ?_ (by decide +kernel) (by decide +kernel), ?_⟩
  · intro x hx
    exact loans_all x (by simp at hx ⊢; tauto)
  · obtain ⟨m', i, h1, h2, h3⟩ := hb
    intro h
    have hd : (modOf entB).run.map (fun m => m.entities.map (fun e => decide (e.transactions = []))) = .ok [false] := by decide +kernel
    rw [h1] at hd
    have hd' : m'.entities.map (fun e => decide (e.transactions = [])) = [false] := by simpa [Except.map] using hd
    have := List.getElem?_map (f := fun e : Entity => decide (e.transactions = [])) (l := m'.entities) (i := i)
    rw [hd', h3] at this
    rcases i with _ | i <;> simp [h] at this

/-! ## C147: a longer run begins like a shorter one -/

theorem firstAfter_mono {clk : Clock} {t : Int} {n n' i : Nat} (h : firstAfter clk t n = some i) (hn : n ≤ n') : firstAfter clk t n' = some i := by
  unfold firstAfter at *
  obtain ⟨k, rfl⟩ := Nat.exists_eq_add_of_le hn
  rw [List.range_add, List.find?_append, h]
  rfl

theorem firstAfter_none {clk : Clock} {t : Int} {n n' i : Nat} (h : firstAfter clk t n = none) (hi : firstAfter clk t n' = some i) : n ≤ i := by
  unfold firstAfter at *
  by_contra hc
  rw [List.find?_eq_none] at h
  have := h i (List.mem_range.2 (by omega))
  exact this (List.find?_some (p := fun i : Nat => decide (clk.atIx (i:Int) > t)) hi)

theorem firstAfter_some {clk : Clock} {t : Int} {n i : Nat} (hi : i < n) (h : t < clk.atIx i) : ∃ j, firstAfter clk t n = some j := by
  cases hf : firstAfter clk t n with
  | some j => exact ⟨j, rfl⟩
  | none =>
    unfold firstAfter at hf
    rw [List.find?_eq_none] at hf
    have := hf i (List.mem_range.2 hi)
    simp at this
    omega

theorem prepStart_longer {clk : Clock} {n n' : Nat} {a : Activity} (h : StartsWithin clk n a) (hn : n ≤ n') : a.prepStart clk n' = a.prepStart clk n ∧ 0 ≤ a.prepStart clk n := by
  obtain ⟨⟨f1, f2⟩, hs⟩ := h
  unfold Activity.prepStart
  rcases hs with hs | ⟨i, hi, hlt⟩
  · simp [f1, hs]
  · by_cases h0 : a.start = dtMin
    · simp [f1, h0]
    · obtain ⟨j, hj⟩ := firstAfter_some hi hlt
      simp only [f1, hj, firstAfter_mono hj hn, h0, ne_eq, not_false_eq_true, and_self, if_true]
      constructor
      · trivial
      · have := Int.natCast_nonneg j
        split <;> omega

theorem prepEnd_longer {clk : Clock} {n n' : Nat} {a : Activity} (h : StartsWithin clk n a) (hn : n ≤ n') :
    (EndsWithin clk n a → a.prepEnd clk n ≤ a.prepEnd clk n') ∧ ∀ x : Int, x ≤ n → (x ≤ a.prepEnd clk n' ↔ x ≤ a.prepEnd clk n) := by
  obtain ⟨e, h0⟩ := prepStart_longer h hn
  obtain ⟨⟨f1, f2⟩, hs⟩ := h
  unfold Activity.prepEnd Activity.prepCount
  rw [e]
  by_cases hst : a.stop = dtMax
  · simp only [f2, hst, ne_eq, not_true_eq_false, and_false, if_false]
    exact ⟨fun _ => by omega, fun x hx => by omega⟩
  · simp only [f2, hst, ne_eq, not_false_eq_true, and_self, if_true]
    cases hf : firstAfter clk a.stop n with
    | some j =>
      have hj : j < n := by
        unfold firstAfter at hf
        exact List.mem_range.1 (List.mem_of_find?_eq_some hf)
      simp only [firstAfter_mono hf hn]
      split
      · exact ⟨fun _ => le_refl _, fun _ _ => Iff.rfl⟩
      · constructor
        · intro _; omega
        · intro x hx; omega
    | none =>
      refine ⟨?_, ?_⟩
      · rintro (h | ⟨i, hi, hlt⟩)
        · exact absurd h hst
        · obtain ⟨j, hj⟩ := firstAfter_some hi hlt
          rw [hf] at hj
          cases hj
      · intro x hx
        cases hg : firstAfter clk a.stop n' with
        | none =>
          simp only [not_true_eq_false, if_false]
          omega
        | some j =>
          have := firstAfter_none hf hg
          simp only [not_true_eq_false, if_false]
          split <;> omega

theorem scheduled_iff (clk : Clock) (n i : Nat) (a : Activity) : Scheduled (a.prepare clk n) i ↔ (a.interval = 0 ∨ a.interval ∣ (i : Int) + 1) ∧ a.prepStart clk n ≤ i ∧ i + a.interval ≤ a.prepEnd clk n := Iff.rfl

theorem scheduled_longer {clk : Clock} {n n' i : Nat} {a : Activity} (h : StartsWithin clk n a) (hn : n ≤ n') (hi : (i : Int) + a.interval ≤ n) : Scheduled (a.prepare clk n') i ↔ Scheduled (a.prepare clk n) i := by
  rw [scheduled_iff, scheduled_iff, (prepStart_longer h hn).1, (prepEnd_longer h hn).2 _ hi]

theorem scheduled_short {clk : Clock} {n n' i k : Nat} {a : Activity} (h : StartsWithin clk n a) (he : EndsWithin clk n a) (hn : n ≤ n') (hi : Scheduled (a.prepare clk n) i) (hk : k ≤ i) :
    Scheduled (a.prepare clk n') k ↔ Scheduled (a.prepare clk n) k := by
  rw [scheduled_iff] at hi ⊢
  rw [scheduled_iff, (prepStart_longer h hn).1]
  have := (prepEnd_longer h hn).1 he
  have h1 : (k : Int) + a.interval ≤ a.prepEnd clk n := by omega
  have h2 : (k : Int) + a.interval ≤ a.prepEnd clk n' := by omega
  simp only [h1, h2]

theorem txsAt_of_scheduled {clk c : Clock} {n n' i : Nat} {a : Activity} (h : ∀ k ≤ i, Scheduled (a.prepare clk n') k ↔ Scheduled (a.prepare clk n) k) : txsAt c (a.prepare clk n') i = txsAt c (a.prepare clk n) i := by
  have hd : ∀ k ≤ i, Due (a.prepare clk n') k ↔ Due (a.prepare clk n) k := by
    intro k hk
    unfold Due
    rw [h k hk]
    rfl
  have he : execsBefore (a.prepare clk n') i = execsBefore (a.prepare clk n) i := by
    unfold execsBefore
    congr 1
    apply List.filter_congr
    intro k hk
    have := List.mem_range.1 hk
    simp only [hd k (by omega)]
  unfold txsAt
  simp only [hd i (le_refl i)]
  rw [he]
  rfl

theorem txsAt_longer {clk c : Clock} {n n' i : Nat} {a : Activity} (h : StartsWithin clk n a) (hn : n ≤ n') (hi : (i : Int) + a.interval ≤ n) : txsAt c (a.prepare clk n') i = txsAt c (a.prepare clk n) i :=
  txsAt_of_scheduled (fun k hk => scheduled_longer h hn (by omega))

theorem txsAt_short {clk c : Clock} {n n' i : Nat} {a : Activity} (h : StartsWithin clk n a) (he : EndsWithin clk n a) (hn : n ≤ n') : (txsAt c (a.prepare clk n) i).Sublist (txsAt c (a.prepare clk n') i) := by
  by_cases hd : Due (a.prepare clk n) i
  · rw [txsAt_of_scheduled (fun k hk => scheduled_short h he hn hd.1 hk)]
  · have : txsAt c (a.prepare clk n) i = [] := by
      unfold txsAt
      rw [if_neg hd]
    rw [this]
    exact List.nil_sublist _

theorem flatMap_sublist {α β : Type} (f g : α → List β) : ∀ l : List α, (∀ a ∈ l, (f a).Sublist (g a)) → (l.flatMap f).Sublist (l.flatMap g) := by
  intro l
  induction l with
  | nil => intro _; exact List.Sublist.refl _
  | cons a l ih =>
    intro hh
    simp only [List.flatMap_cons]
    exact (hh a (by simp)).append (ih (fun x hx => hh x (by simp [hx])))

/-- **C147.** When every activity starts within the shorter run and ends within it or never, whatever the intervals, the shorter run posts nothing that the longer run does not post, in the same order and with the same amounts. -/
theorem C147_sublist (m : Model) (n' : Nat) (hn : m.periodCount ≤ n') (e e' e'' : Entity) (h : RunOf m e e') (h' : RunOf { m with periodCount := n' } e e'')
    (hl : ∀ e ∈ m.entities, LoansOk (activitiesOfList e.components)) (hp : ∀ a ∈ activitiesOfList e.components, StartsWithin m.clock.reset m.periodCount a ∧ EndsWithin m.clock.reset m.periodCount a) :
    (posted e'.transactions).Sublist (posted e''.transactions) := by
  rw [posted_of_run h hl, posted_of_run h' hl]
  show List.Sublist _ (expected m.clock n' ((activitiesOfList e.components).map (Activity.prepare m.clock.reset n')))
  obtain ⟨k, rfl⟩ := Nat.exists_eq_add_of_le hn
  unfold expected
  rw [List.range_add, List.flatMap_append]
  refine List.Sublist.trans ?_ (List.sublist_append_left _ _)
  apply flatMap_sublist
  intro i _
  rw [List.flatMap_map, List.flatMap_map]
  exact flatMap_sublist _ _ _ (fun a ha => txsAt_short (hp a ha).1 (hp a ha).2 hn)

/-- **C147.** What the longer run posts and the shorter does not is posted in the last periods of the shorter run, fewer than the greatest interval `k`, or after it: in the first `n - k + 1` periods the two agree. -/
theorem C147_until (m : Model) (n' : Nat) (hn : m.periodCount ≤ n') (e e' e'' : Entity) (h : RunOf m e e') (h' : RunOf { m with periodCount := n' } e e'')
    (hl : ∀ e ∈ m.entities, LoansOk (activitiesOfList e.components)) (hp : ∀ a ∈ activitiesOfList e.components, StartsWithin m.clock.reset m.periodCount a)
    (k : Nat) (hk : ∀ a ∈ activitiesOfList e.components, a.interval ≤ k) (h0 : 1 ≤ k) :
    ∃ common rest' rest'' : List Tx, posted e'.transactions = common ++ rest' ∧ posted e''.transactions = common ++ rest'' ∧
      (∀ t ∈ rest', ∃ i : Nat, m.periodCount < i + k ∧ i < m.periodCount ∧ t.date = m.clock.reset.atIx i) ∧ ∀ t ∈ rest'', ∃ i : Nat, m.periodCount < i + k ∧ i < n' ∧ t.date = m.clock.reset.atIx i := by
  rw [posted_of_run h hl, posted_of_run h' hl]
  show ∃ common rest' rest'', _ ∧ expected m.clock n' ((activitiesOfList e.components).map (Activity.prepare m.clock.reset n')) = _ ∧ _
  have hr : ∀ q x : Nat, ∃ s : List Nat, List.range (q + x) = List.range q ++ s ∧ ∀ i ∈ s, q ≤ i ∧ i < q + x := by
    intro q x
    refine ⟨_, List.range_add, ?_⟩
    intro i hi
    simp only [List.mem_map, List.mem_range] at hi
    omega
  obtain ⟨s, hs, hs'⟩ := hr (m.periodCount + 1 - k) (m.periodCount - (m.periodCount + 1 - k))
  obtain ⟨s2, hs2, hs2'⟩ := hr (m.periodCount + 1 - k) (n' - (m.periodCount + 1 - k))
  have hdate : ∀ (as : List Activity) (i : Nat), ∀ t ∈ as.flatMap (fun a => txsAt m.clock a i), t.date = m.clock.reset.atIx i := by
    intro as i t ht
    obtain ⟨a, -, ht⟩ := List.mem_flatMap.1 ht
    unfold txsAt at ht
    split at ht
    · dsimp only at ht
      split at ht
      · simp only [List.mem_singleton] at ht; rw [ht]; rfl
      · split at ht
        · simp only [List.mem_singleton] at ht; rw [ht]; rfl
        · simp only [List.mem_cons, List.not_mem_nil, or_false] at ht; rcases ht with rfl | rfl <;> rfl
    · simp at ht
  have e1 : m.periodCount = (m.periodCount + 1 - k) + (m.periodCount - (m.periodCount + 1 - k)) := by omega
  have e2 : n' = (m.periodCount + 1 - k) + (n' - (m.periodCount + 1 - k)) := by omega
  refine ⟨(List.range (m.periodCount + 1 - k)).flatMap (fun i => ((activitiesOfList e.components).map (Activity.prepare m.clock.reset m.periodCount)).flatMap (fun a => txsAt m.clock a i)),
    s.flatMap (fun i => ((activitiesOfList e.components).map (Activity.prepare m.clock.reset m.periodCount)).flatMap (fun a => txsAt m.clock a i)),
    s2.flatMap (fun i => ((activitiesOfList e.components).map (Activity.prepare m.clock.reset n')).flatMap (fun a => txsAt m.clock a i)), ?_, ?_, ?_, ?_⟩
  · rw [← List.flatMap_append, ← hs, ← e1]
    rfl
  · unfold expected
    conv_lhs => rw [e2, hs2]
    rw [← e2, List.flatMap_append]
    congr 1
    apply List.flatMap_congr
    intro i hi
    rw [List.flatMap_map, List.flatMap_map]
    apply List.flatMap_congr
    intro a ha
    have := hk a ha
    have := List.mem_range.1 hi
    exact txsAt_longer (hp a ha) hn (by omega)
  · intro t ht
    obtain ⟨i, hi, ht⟩ := List.mem_flatMap.1 ht
    have := hs' i hi
    exact ⟨i, by omega, by omega, hdate _ i t ht⟩
  · intro t ht
    obtain ⟨i, hi, ht⟩ := List.mem_flatMap.1 ht
    have := hs2' i hi
    exact ⟨i, by omega, by omega, hdate _ i t ht⟩

/-- **C147.** When every activity executes every period and starts within the shorter run, the longer run of a model posts first what the shorter run posts. -/
theorem C147_prefix (m : Model) (n' : Nat) (hn : m.periodCount ≤ n') (e e' e'' : Entity) (h : RunOf m e e') (h' : RunOf { m with periodCount := n' } e e'')
    (hl : ∀ e ∈ m.entities, LoansOk (activitiesOfList e.components)) (hp : ∀ a ∈ activitiesOfList e.components, Plainly m.clock.reset m.periodCount a) :
    posted e'.transactions <+: posted e''.transactions := by
  rw [posted_of_run h hl, posted_of_run h' hl]
  show _ <+: expected m.clock n' ((activitiesOfList e.components).map (Activity.prepare m.clock.reset n'))
  obtain ⟨k, rfl⟩ := Nat.exists_eq_add_of_le hn
  unfold expected
  rw [List.range_add, List.flatMap_append]
  refine ⟨_, congrArg (· ++ _) ?_⟩
  apply List.flatMap_congr
  intro i hi
  rw [List.flatMap_map, List.flatMap_map]
  apply List.flatMap_congr
  intro a ha
  have := List.mem_range.1 hi
  obtain ⟨p1, p2, p3⟩ := hp a ha
  exact (txsAt_longer ⟨p1, p3⟩ hn (by rcases p2 with h | h <;> omega)).symm

/-- an activity that executes every month -/
def actM : Activity := newBasic "M".toList "Bank/Default".toList "Sales/Ore".toList 5 dtMin dtMax 1 none
/-- an activity that executes every second month -/
def act2 : Activity := newBasic "M".toList "Bank/Default".toList "Sales/Ore".toList 5 dtMin dtMax 2 none
/-- an activity that starts on 15 August 2017 -/
def actLate : Activity := newBasic "M".toList "Bank/Default".toList "Sales/Ore".toList 5 (mkDateTime 2017 8 15 0) dtMax 1 none
def entOf (a : Activity) : Entity := { Entity.new "Plant".toList chart0 with components := [{ (Component.new "C".toList none) with activities := [a.setParentPath "/C".toList] }] }
/-- `n` months from January 2017 -/
def months (a : Activity) (n : Nat) : Model := ⟨"M".toList, Clock.new (mkDateTime 2017 1 1 0) .month 1, n, [entOf a]⟩
/-- the dates and amounts that a run posts -/
def postings (m : Model) : Res (List (List (Int × ℚ))) := m.run.map (fun m => m.entities.map (fun e => (posted e.transactions).map (fun t => (t.date, t.amount))))

example : ∃ e' e'' : Entity, posted e'.transactions <+: posted e''.transactions := by
  obtain ⟨a, ha⟩ : ∃ e', RunOf (months actM 2) (entOf actM) e' := runOf_ok (i := 0) (by decide +kernel) rfl
  obtain ⟨b, hb⟩ : ∃ e', RunOf (months actM 14) (entOf actM) e' := runOf_ok (i := 0) (by decide +kernel) rfl
  refine ⟨a, b, C147_prefix (months actM 2) 14 (by decide) _ a b ha hb ?_ ?_⟩
  · intro e he
    exact loansOk_of (by revert e; decide +kernel)
  · intro x hx
    have : x = actM.setParentPath "/C".toList := by
      have h : activitiesOfList (entOf actM).components = [actM.setParentPath "/C".toList] := by decide +kernel
      rw [h] at hx; simpa using hx
    subst this
    exact ⟨⟨rfl, rfl⟩, Or.inr rfl, Or.inl rfl⟩

example : ∃ e' e'' : Entity, (posted e'.transactions).Sublist (posted e''.transactions) ∧ e'.transactions ≠ [] := by
  have h : activitiesOfList (entOf act2).components = [act2.setParentPath "/C".toList] := by decide +kernel
  obtain ⟨a, ha⟩ : ∃ e', RunOf (months act2 5) (entOf act2) e' := runOf_ok (i := 0) (by decide +kernel) rfl
  obtain ⟨b, hb⟩ : ∃ e', RunOf (months act2 14) (entOf act2) e' := runOf_ok (i := 0) (by decide +kernel) rfl
  refine ⟨a, b, C147_sublist (months act2 5) 14 (by decide) _ a b ha hb ?_ ?_, ?_⟩
  · intro e he
    exact loansOk_of (by revert e; decide +kernel)
  · intro x hx
    rw [h] at hx
    obtain rfl : x = act2.setParentPath "/C".toList := by simpa using hx
    exact ⟨⟨⟨rfl, rfl⟩, Or.inl rfl⟩, Or.inl rfl⟩
  · obtain ⟨m', i, h1, h2, h3⟩ := ha
    intro h
    have hd : (months act2 5).run.map (fun m => m.entities.map (fun e => decide (e.transactions = []))) = .ok [false] := by decide +kernel
    rw [h1] at hd
    have hd' : m'.entities.map (fun e => decide (e.transactions = [])) = [false] := by simpa [Except.map] using hd
    have := List.getElem?_map (f := fun e : Entity => decide (e.transactions = [])) (l := m'.entities) (i := i)
    rw [hd', h3] at this
    rcases i with _ | i <;> simp [h] at this

example : ∃ (e' e'' : Entity) (common rest' rest'' : List Tx), posted e'.transactions = common ++ rest' ∧ posted e''.transactions = common ++ rest'' ∧
    (∀ t ∈ rest', ∃ i : Nat, 5 < i + 2 ∧ i < 5 ∧ t.date = (months act2 5).clock.reset.atIx i) ∧ ∀ t ∈ rest'', ∃ i : Nat, 5 < i + 2 ∧ i < 14 ∧ t.date = (months act2 5).clock.reset.atIx i := by
  have h : activitiesOfList (entOf act2).components = [act2.setParentPath "/C".toList] := by decide +kernel
  obtain ⟨a, ha⟩ : ∃ e', RunOf (months act2 5) (entOf act2) e' := runOf_ok (i := 0) (by decide +kernel) rfl
  obtain ⟨b, hb⟩ : ∃ e', RunOf (months act2 14) (entOf act2) e' := runOf_ok (i := 0) (by decide +kernel) rfl
  refine ⟨a, b, C147_until (months act2 5) 14 (by decide) _ a b ha hb ?_ ?_ 2 ?_ (by decide)⟩
  · intro e he
    exact loansOk_of (by revert e; decide +kernel)
  · intro x hx
    rw [h] at hx
    obtain rfl : x = act2.setParentPath "/C".toList := by simpa using hx
    exact ⟨⟨rfl, rfl⟩, Or.inl rfl⟩
  · intro x hx
    rw [h] at hx
    obtain rfl : x = act2.setParentPath "/C".toList := by simpa using hx
    decide

/-- every third month from 15 March to 15 June -/
def act3 : Activity := newBasic "M".toList "Bank/Default".toList "Sales/Ore".toList 5 (mkDateTime 2017 3 15 0) (mkDateTime 2017 6 15 0) 3 none

/-- **C147, violated.** An activity with interval 2 posts in February when the model runs for four months but not when it runs for two; an activity that starts in August posts every month in a run that ends in March; an activity that ends in mid June and executes every third month posts in June when the run ends in June but not when it goes on. -/
theorem C147_violated :
    postings (months act2 2) = .ok [[]] ∧ postings (months act2 4) = .ok [[(mkDateTime 2017 2 1 0, 5)]] ∧
    postings (months actLate 3) = .ok [[(mkDateTime 2017 1 1 0, 5), (mkDateTime 2017 2 1 0, 5), (mkDateTime 2017 3 1 0, 5)]] ∧
    postings (months actLate 9) = .ok [[(mkDateTime 2017 9 1 0, 5)]] ∧
    postings (months act3 6) = .ok [[(mkDateTime 2017 6 1 0, 5)]] ∧ postings (months act3 7) = .ok [[]] := by
  refine ⟨?_, ?_, ?_, ?_, ?_, ?_⟩ <;> decide +kernel

end Auxi.Business.Props
