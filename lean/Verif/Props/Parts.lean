import Verif.Proofs.Parts
import Verif.Props.TimeShift

/-! # C158: a plan in parts -/
namespace Auxi.Business.Props
open Auxi.Business Auxi.Business.Spec Time Calendar

theorem runEntityFor_of {m : Model} {e e' : Entity} (h : RunOf m e e') : runEntityFor m.clock m.periodCount e = .ok e' := by
  obtain ⟨m', i, h1, h2, h3⟩ := h
  exact forall₂_get ((C22_run_is_entities_run m m').1 h1).2.2.2 h2 h3

theorem runEntityFor_reset (c : Clock) (n : Nat) (e : Entity) : runEntityFor c n e = runEntityFor c.reset n e := rfl

theorem lin_flatMap {α : Type} (g : Str → Str → Int → ℚ) (f : α → List Tx) (l : List α) : lin g (l.flatMap f) = (l.map (fun x => lin g (f x))).sum := by
  induction l with
  | nil => rfl
  | cons x l ih => rw [List.flatMap_cons, lin_append, ih, List.map_cons, List.sum_cons]

theorem linEq_of {m m1 : Model} {e e1 e' e1' : Entity} {xs ys r : List Activity} (h : RunOf m e e') (h1 : RunOf m1 e1 e1')
    (hc : m1.clock.reset = m.clock.reset) (hn : m1.periodCount = m.periodCount)
    (hl : ∀ x ∈ [m, m1], ∀ e ∈ x.entities, LoansOk (activitiesOfList e.components))
    (ha : (activitiesOfList e.components).Perm (xs ++ r)) (ha1 : (activitiesOfList e1.components).Perm (ys ++ r))
    (hs : ∀ i, i < m.periodCount → ∀ g, lin g (ys.flatMap (fun a => txsAt m.clock.reset (a.prepare m.clock.reset m.periodCount) i)) = lin g (xs.flatMap (fun a => txsAt m.clock.reset (a.prepare m.clock.reset m.periodCount) i))) :
    LinEq (posted e'.transactions) (posted e1'.transactions) := by
  intro g
  rw [posted_of_run h (hl m (by simp)), posted_of_run h1 (hl m1 (by simp)), hn, hc]
  have hx : ∀ as, expected m1.clock m.periodCount as = expected m.clock.reset m.periodCount as := fun as => by
    rw [← hc]; rfl
  have hy : ∀ as, expected m.clock m.periodCount as = expected m.clock.reset m.periodCount as := fun as => rfl
  rw [hx, hy]
  unfold expected
  rw [lin_flatMap, lin_flatMap]
  congr 1
  apply List.map_congr_left
  intro i hi
  have key : ∀ {as bs : List Activity}, as.Perm bs → lin g ((as.map (Activity.prepare m.clock.reset m.periodCount)).flatMap (fun a => txsAt m.clock.reset a i)) =
      lin g (bs.flatMap (fun a => txsAt m.clock.reset (a.prepare m.clock.reset m.periodCount) i)) := by
    intro as bs hp
    rw [List.flatMap_map, lin_flatMap, lin_flatMap]
    exact (hp.map _).sum_eq
  rw [key ha, key ha1, List.flatMap_append, List.flatMap_append, lin_append, lin_append, hs i (List.mem_range.1 hi) g]

/-- **C158.** Order and place of the activities play no part in what the ledger says, year ends included. -/
theorem C158_order (m m1 : Model) (e e1 e' e1' : Entity) (h : RunOf m e e') (h1 : RunOf m1 e1 e1') (hc : m1.clock.reset = m.clock.reset) (hn : m1.periodCount = m.periodCount)
    (hl : ∀ x ∈ [m, m1], ∀ e ∈ x.entities, LoansOk (activitiesOfList e.components)) (he : e1.chart = e.chart ∧ e1.path = e.path)
    (ha : (activitiesOfList e1.components).Perm (activitiesOfList e.components)) : SameBooks e'.transactions e1'.transactions := by
  have q := linEq_of (xs := []) (ys := []) h h1 hc hn hl (List.Perm.refl (activitiesOfList e.components)) ha (fun _ _ _ => rfl)
  have h1' := runEntityFor_of h1
  rw [runEntityFor_reset, hc, hn, ← runEntityFor_reset] at h1'
  exact sameBooks_of (runEntityFor_of h) h1' he.1 he.2 q

theorem prepare_sameTimes {a b : Activity} (h : SameTimes a b) (c : Clock) (n : Nat) :
    (b.prepare c n).startIx = (a.prepare c n).startIx ∧ (b.prepare c n).endIx = (a.prepare c n).endIx ∧ (b.prepare c n).interval = (a.prepare c n).interval := by
  obtain ⟨h1, h2, h3, h4, h5⟩ := h
  have s : b.prepStart c n = a.prepStart c n := by unfold Activity.prepStart; rw [h1, h4]
  have k : b.prepCount c n = a.prepCount c n := by unfold Activity.prepCount; rw [h2, h5, s]
  have d : b.prepEnd c n = a.prepEnd c n := by unfold Activity.prepEnd; rw [k, s]
  exact ⟨s, d, h3⟩

theorem execs_congr {a b : Activity} (h : ∀ i, Due b i ↔ Due a i) (i : Nat) : execsBefore b i = execsBefore a i := by
  unfold execsBefore
  congr 1
  apply List.filter_congr
  intro k _
  simp only [h k]

theorem outstanding_add (x y r p q : ℚ) (j : Nat) : outstanding (x + y) r (p + q) j = outstanding x r p j + outstanding y r q j := by
  induction j with
  | zero => rfl
  | succ j ih => unfold outstanding; rw [ih]; ring

theorem parts_at {a b c : Activity} (h : Parts a b c) (clk clk1 : Clock) (n i : Nat) (g : Str → Str → Int → ℚ) :
    lin g (txsAt clk1 (b.prepare clk n) i) + lin g (txsAt clk1 (c.prepare clk n) i) = lin g (txsAt clk1 (a.prepare clk n) i) := by
  obtain ⟨hb, hc, hk⟩ := h
  obtain ⟨b1, b2, b3⟩ := prepare_sameTimes hb clk n
  obtain ⟨c1, c2, c3⟩ := prepare_sameTimes hc clk n
  have sb : ∀ i, Scheduled (b.prepare clk n) i ↔ Scheduled (a.prepare clk n) i := fun i => by unfold Scheduled; rw [b1, b2, b3]
  have sc : ∀ i, Scheduled (c.prepare clk n) i ↔ Scheduled (a.prepare clk n) i := fun i => by unfold Scheduled; rw [c1, c2, c3]
  have ka : (a.prepare clk n).kind = a.kind.reset := rfl
  have kb : (b.prepare clk n).kind = b.kind.reset := rfl
  have kc : (c.prepare clk n).kind = c.kind.reset := rfl
  cases hka : a.kind with
  | basic x dt cr =>
    cases hkb : b.kind with
    | loan => rw [hka, hkb] at hk; exact hk.elim
    | basic y dt1 cr1 =>
      cases hkc : c.kind with
      | loan => rw [hka, hkb, hkc] at hk; exact hk.elim
      | basic z dt2 cr2 =>
        rw [hka, hkb, hkc] at hk
        obtain ⟨h1, h2, h3, rfl, rfl, rfl, rfl⟩ := hk
        rw [hka] at ka; rw [hkb] at kb; rw [hkc] at kc
        simp only [Kind.reset] at ka kb kc
        have db : Due (b.prepare clk n) i ↔ Due (a.prepare clk n) i := by
          unfold Due Active; rw [ka, kb, sb]; simp only [h2, and_true]
          exact ⟨fun hh => ⟨hh, by linarith⟩, fun hh => hh.1⟩
        have dc : Due (c.prepare clk n) i ↔ Due (a.prepare clk n) i := by
          unfold Due Active; rw [ka, kc, sc]; simp only [h3, and_true]
          exact ⟨fun hh => ⟨hh, by linarith⟩, fun hh => hh.1⟩
        unfold txsAt
        simp only [db, dc]
        by_cases hd : Due (a.prepare clk n) i
        · rw [if_pos hd, if_pos hd, if_pos hd, ka, kb, kc]
          simp only [lin, List.map_cons, List.map_nil, List.sum_cons, List.sum_nil]
          rw [h1]; ring
        · rw [if_neg hd, if_neg hd, if_neg hd]; simp [lin]
  | loan bk ln it x r p d mo lf =>
    cases hkb : b.kind with
    | basic => rw [hka, hkb] at hk; exact hk.elim
    | loan bk1 ln1 it1 y r1 p1 d1 mo1 lf1 =>
      cases hkc : c.kind with
      | basic => rw [hka, hkb, hkc] at hk; exact hk.elim
      | loan bk2 ln2 it2 z r2 p2 d2 mo2 lf2 =>
        rw [hka, hkb, hkc] at hk
        obtain ⟨h1, h2, h3, h4, ⟨rfl, rfl, rfl, rfl, rfl⟩, ⟨rfl, rfl, rfl, rfl, rfl⟩⟩ := hk
        rw [hka] at ka; rw [hkb] at kb; rw [hkc] at kc
        simp only [Kind.reset] at ka kb kc
        have db : ∀ i, Due (b.prepare clk n) i ↔ Due (a.prepare clk n) i := fun i => by
          unfold Due Active; rw [ka, kb, sb]; simp only [h2, true_and]
          exact ⟨fun hh => ⟨hh.1, by linarith, hh.2⟩, fun hh => ⟨hh.1, hh.2.2⟩⟩
        have dc : ∀ i, Due (c.prepare clk n) i ↔ Due (a.prepare clk n) i := fun i => by
          unfold Due Active; rw [ka, kc, sc]; simp only [h3, true_and]
          exact ⟨fun hh => ⟨hh.1, by linarith, hh.2⟩, fun hh => ⟨hh.1, hh.2.2⟩⟩
        unfold txsAt
        simp only [db, dc]
        by_cases hd : Due (a.prepare clk n) i
        · rw [if_pos hd, if_pos hd, if_pos hd, ka, kb, kc, execs_congr db, execs_congr dc]
          dsimp only
          cases execsBefore (a.prepare clk n) i with
          | zero => simp only [lin, List.map_cons, List.map_nil, List.sum_cons, List.sum_nil]; rw [h1]; ring
          | succ j => simp only [lin, List.map_cons, List.map_nil, List.sum_cons, List.sum_nil]; rw [h1, h4, outstanding_add]; ring
        · rw [if_neg hd, if_neg hd, if_neg hd]; simp [lin]

/-- **C158.** An amount planned in two parts comes to the same as planned whole: an entity that has two activities (or two loans) instead of one of the sum of their amounts keeps the same books, year ends included. -/
theorem C158_amounts (m m1 : Model) (e e1 e' e1' : Entity) (a b c : Activity) (r : List Activity) (h : RunOf m e e') (h1 : RunOf m1 e1 e1')
    (hc : m1.clock.reset = m.clock.reset) (hn : m1.periodCount = m.periodCount) (hl : ∀ x ∈ [m, m1], ∀ e ∈ x.entities, LoansOk (activitiesOfList e.components))
    (he : e1.chart = e.chart ∧ e1.path = e.path) (hp : Parts a b c)
    (ha : (activitiesOfList e.components).Perm (a :: r)) (ha1 : (activitiesOfList e1.components).Perm (b :: c :: r)) : SameBooks e'.transactions e1'.transactions := by
  have q := linEq_of (xs := [a]) (ys := [b, c]) h h1 hc hn hl ha ha1 (by
    intro i _ g
    simp only [List.flatMap_cons, List.flatMap_nil, List.append_nil, lin_append]
    exact parts_at hp _ _ _ i g)
  have h1' := runEntityFor_of h1
  rw [runEntityFor_reset, hc, hn, ← runEntityFor_reset] at h1'
  exact sameBooks_of (runEntityFor_of h) h1' he.1 he.2 q

/-- **C158.** Loans of `x` and of `y` on the same terms are parts of the loan of `x + y`. -/
theorem C158_loans (name name1 name2 bank loan interest : Str) (x y rate : ℚ) (start duration interval : Int) (d d1 d2 : Option Str) (a b c : Activity) (hx : 0 < x) (hy : 0 < y)
    (h : newLoan name bank loan interest (x + y) rate start duration interval d = .ok a) (h1 : newLoan name1 bank loan interest x rate start duration interval d1 = .ok b)
    (h2 : newLoan name2 bank loan interest y rate start duration interval d2 = .ok c) : Parts a b c := by
  unfold newLoan monthlyPayment at h h1 h2
  dsimp only at h h1 h2
  split at h
  · cases h
  · next p hp =>
    split at h1
    · cases h1
    · next p1 hp1 =>
      split at h2
      · cases h2
      · next p2 hp2 =>
        split_ifs at hp hp1 hp2
        simp only [Except.ok.injEq] at h h1 h2 hp hp1 hp2
        subst h h1 h2 hp hp1 hp2
        exact ⟨⟨rfl, rfl, rfl, rfl, rfl⟩, ⟨rfl, rfl, rfl, rfl, rfl⟩, rfl, hx, hy, by ring, ⟨rfl, rfl, rfl, rfl, rfl⟩, rfl, rfl, rfl, rfl, rfl⟩

theorem firstAfter_le {clk : Clock} {t t' : Int} {n k q : Nat} (h : t ≤ t') (hk : firstAfter clk t n = some k) (hq : firstAfter clk t' n = some q) : k ≤ q := by
  unfold firstAfter at hk hq
  obtain ⟨hq1, q2, q3⟩ := List.find?_range_eq_some.1 hq
  obtain ⟨hk1, k2, k3⟩ := List.find?_range_eq_some.1 hk
  by_contra hlt
  have := k3 q (by omega)
  simp at this hq1
  omega

theorem prepStart_open {clk : Clock} {n : Nat} {a : Activity} (h : a.startIx = -1) (hd : a.start = dtMin) : a.prepStart clk n = 0 := by
  unfold Activity.prepStart; simp [h, hd]

theorem prepStart_at {clk : Clock} {n k : Nat} {a : Activity} (h : a.startIx = -1) (hd : a.start ≠ dtMin) (hk : firstAfter clk a.start n = some k) : a.prepStart clk n = k := by
  have : ¬ ((k : Int) = -1) := by omega
  unfold Activity.prepStart; simp [h, hd, hk, this]

/-- the periods of the two halves together are those of the whole -/
theorem halves_periods {clk : Clock} {n : Nat} {t : Int} {a b c : Activity} (h : Halves t a b c) (hi : a.interval = 1) (ht : ∃ i : Nat, i < n ∧ t < clk.atIx i) :
    ∃ k, ∀ i : Nat, i < n → (Scheduled (b.prepare clk n) i ↔ Scheduled (a.prepare clk n) i ∧ i < k) ∧ (Scheduled (c.prepare clk n) i ↔ Scheduled (a.prepare clk n) i ∧ ¬ i < k) := by
  obtain ⟨⟨_, b2, b3, b4⟩, ⟨_, c2, c3, c4⟩, fa, fb, fc, l1, l2, l3, l4⟩ := h
  obtain ⟨i0, i1, i2⟩ := ht
  obtain ⟨k, hk⟩ := firstAfter_some i1 i2
  have hkn : k < n := by
    unfold firstAfter at hk; exact List.mem_range.1 (List.find?_range_eq_some.1 hk).2.1
  refine ⟨k, ?_⟩
  -- the start of the whole
  obtain ⟨s, hs, hsk⟩ : ∃ s : Nat, a.prepStart clk n = s ∧ s ≤ k := by
    by_cases hd : a.start = dtMin
    · exact ⟨0, prepStart_open fa.1 hd, by omega⟩
    · obtain ⟨s, hs⟩ := firstAfter_some (clk := clk) (t := a.start) i1 (by omega)
      exact ⟨s, prepStart_at fa.1 hd hs, firstAfter_le (by omega) hs hk⟩
  have hsb : b.prepStart clk n = s := by
    rw [← hs]; unfold Activity.prepStart; rw [fb.1, fa.1, b3]
  have hsc : c.prepStart clk n = k := prepStart_at fc.1 (by omega) (by rw [c3]; exact hk)
  have heb : b.prepEnd clk n = k := by
    have : b.prepCount clk n = k - s := by
      unfold Activity.prepCount
      rw [fb.2, b4, if_pos ⟨rfl, by omega⟩, hk, hsb]
    unfold Activity.prepEnd
    rw [this, hsb, if_pos (by omega)]; omega
  have hend : (a.prepEnd clk n = s + n ∧ c.prepEnd clk n = k + n) ∨ ∃ q : Nat, k ≤ q ∧ a.prepEnd clk n = q ∧ c.prepEnd clk n = q := by
    unfold Activity.prepEnd
    have ca : a.prepCount clk n = -1 ∧ c.prepCount clk n = -1 ∨ ∃ q : Nat, k ≤ q ∧ a.prepCount clk n = q - s ∧ c.prepCount clk n = q - k := by
      unfold Activity.prepCount
      rw [fa.2, fc.2, c4, hs, hsc]
      by_cases hd : a.stop = dtMax
      · left; rw [if_neg (by simp [hd]), if_neg (by simp [hd])]; exact ⟨rfl, rfl⟩
      · rw [if_pos ⟨rfl, hd⟩, if_pos ⟨rfl, hd⟩]
        cases hq : firstAfter clk a.stop n with
        | none => left; exact ⟨rfl, rfl⟩
        | some q => right; exact ⟨q, firstAfter_le (by omega) hk hq, rfl, rfl⟩
    rcases ca with ⟨x, y⟩ | ⟨q, q1, x, y⟩
    · left; rw [x, y, hs, hsc]; simp
    · right; refine ⟨q, q1, ?_, ?_⟩
      · rw [x, hs, if_pos (by omega)]; omega
      · rw [y, hsc, if_pos (by omega)]; omega
  intro i hin
  have sa : Scheduled (a.prepare clk n) i ↔ (s : Int) ≤ i ∧ (i : Int) + 1 ≤ a.prepEnd clk n := by
    rw [scheduled_iff, hi, hs]; simp
  have sb : Scheduled (b.prepare clk n) i ↔ (s : Int) ≤ i ∧ (i : Int) + 1 ≤ k := by
    rw [scheduled_iff, b2, hi, hsb, heb]; simp
  have sc : Scheduled (c.prepare clk n) i ↔ (k : Int) ≤ i ∧ (i : Int) + 1 ≤ c.prepEnd clk n := by
    rw [scheduled_iff, c2, hi, hsc]; simp
  rw [sa, sb, sc]
  rcases hend with ⟨x, y⟩ | ⟨q, q1, x, y⟩ <;> rw [x, y] <;> constructor <;> omega

/-- **C158.** A basic activity that executes every period, planned in two halves, the one until a day within the run and the other from that day, comes to the same as planned whole. -/
theorem C158_times (m m1 : Model) (e e1 e' e1' : Entity) (a b c : Activity) (r : List Activity) (t : Int) (h : RunOf m e e') (h1 : RunOf m1 e1 e1')
    (hc : m1.clock.reset = m.clock.reset) (hn : m1.periodCount = m.periodCount) (hl : ∀ x ∈ [m, m1], ∀ e ∈ x.entities, LoansOk (activitiesOfList e.components))
    (he : e1.chart = e.chart ∧ e1.path = e.path) (hp : Halves t a b c) (hi : a.interval = 1) (hk : ∃ x dt cr, a.kind = .basic x dt cr) (ht : ∃ i : Nat, i < m.periodCount ∧ t < m.clock.atIx i)
    (ha : (activitiesOfList e.components).Perm (a :: r)) (ha1 : (activitiesOfList e1.components).Perm (b :: c :: r)) : SameBooks e'.transactions e1'.transactions := by
  obtain ⟨k, hs⟩ := halves_periods (clk := m.clock.reset) (n := m.periodCount) hp hi ht
  have q := linEq_of (xs := [a]) (ys := [b, c]) h h1 hc hn hl ha ha1 (by
    intro i hin g
    simp only [List.flatMap_cons, List.flatMap_nil, List.append_nil, lin_append]
    obtain ⟨s1, s2⟩ := hs i hin
    obtain ⟨x, dt, cr, hx⟩ := hk
    have ka : (a.prepare m.clock.reset m.periodCount).kind = .basic x dt cr := by show a.kind.reset = _; rw [hx]; rfl
    have kb : (b.prepare m.clock.reset m.periodCount).kind = .basic x dt cr := by show b.kind.reset = _; rw [hp.1.1, hx]; rfl
    have kc : (c.prepare m.clock.reset m.periodCount).kind = .basic x dt cr := by show c.kind.reset = _; rw [hp.2.1.1, hx]; rfl
    unfold txsAt Due Active
    simp only [s1, s2, ka, kb, kc]
    by_cases hd : Scheduled (a.prepare m.clock.reset m.periodCount) i
    · by_cases hx0 : 0 < x
      · by_cases hik : i < k <;> simp [hd, hx0, hik, lin]
      · simp [hx0, lin]
    · simp [hd, lin])
  have h1' := runEntityFor_of h1
  rw [runEntityFor_reset, hc, hn, ← runEntityFor_reset] at h1'
  exact sameBooks_of (runEntityFor_of h) h1' he.1 he.2 q

/-! ## Cases -/

/-- an entity with these activities -/
def entWith (as : List Activity) : Entity := { Entity.new "Plant".toList chart0 with components := [{ (Component.new "C".toList none) with activities := as }] }
/-- `n` months from January 2017 of an entity with these activities -/
def monthsOf (as : List Activity) (n : Nat) : Model := ⟨"M".toList, Clock.new (mkDateTime 2017 1 1 0) .month 1, n, [entWith as]⟩
/-- a basic activity that books ore sales -/
def ore (name : String) (x : ℚ) (start stop interval : Int) : Activity := newBasic name.toList "Bank/Default".toList "Sales/Ore".toList x start stop interval none

theorem acts_entWith (as : List Activity) : activitiesOfList (entWith as).components = as := by
  simp [entWith, activitiesOfList, activitiesOf, Component.new]

/-- the ledger of a model of one entity, and something that is computed from it -/
theorem runOf_val {α : Type} {m : Model} {e : Entity} (F : Entity → α) (h0 : m.entities = [e]) (v : α) (h : m.run.map (fun m => m.entities.map F) = .ok [v]) :
    ∃ e', RunOf m e e' ∧ F e' = v := by
  have hok : m.run.isOk = true := by
    cases hr : m.run with
    | error x => rw [hr] at h; cases h
    | ok m' => rfl
  obtain ⟨e', he'⟩ := runOf_ok (i := 0) hok (by rw [h0]; rfl)
  refine ⟨e', he', ?_⟩
  obtain ⟨m', i, h1, h2, h3⟩ := he'
  rw [h1] at h
  have hd : m'.entities.map F = [v] := by simpa [Except.map] using h
  have := List.getElem?_map (f := F) (l := m'.entities) (i := i)
  rw [hd, h3] at this
  rcases i with _ | i <;> simp at this
  exact this.symm

theorem loans_entWith (as bs : List Activity) (n n' : Nat) (h : ∀ a ∈ as ++ bs, a.interval ≠ 0) : ∀ x ∈ [monthsOf as n, monthsOf bs n'], ∀ e ∈ x.entities, LoansOk (activitiesOfList e.components) := by
  intro x hx e he
  apply loansOk_of
  simp only [List.mem_cons, List.not_mem_nil, or_false] at hx
  rcases hx with rfl | rfl <;>
  · have he := List.mem_singleton.1 he
    subst he
    rw [acts_entWith]
    intro a ha
    exact h a (by simp [ha])

/-- 5 a month, or 2 and 3 a month: over 14 months 70 move, and the year end makes transactions -/
example : ∃ e' e1' : Entity, SameBooks e'.transactions e1'.transactions ∧ flow "Bank/Default".toList "Sales/Ore".toList (fun _ => true) (posted e'.transactions) = 70 ∧ (closings e'.transactions).length = 3 := by
  obtain ⟨a, ha, hf⟩ := runOf_val (m := monthsOf [ore "A" 5 dtMin dtMax 1] 14) (fun e => (flow "Bank/Default".toList "Sales/Ore".toList (fun _ => true) (posted e.transactions), (closings e.transactions).length)) rfl (70, 3) (by decide +kernel)
  obtain ⟨b, hb, -⟩ := runOf_val (m := monthsOf [ore "B" 2 dtMin dtMax 1, ore "C" 3 dtMin dtMax 1] 14) (fun _ => ()) rfl () (by decide +kernel)
  have hf1 := Prod.ext_iff.1 hf
  refine ⟨a, b, C158_amounts _ _ _ _ a b (ore "A" 5 dtMin dtMax 1) (ore "B" 2 dtMin dtMax 1) (ore "C" 3 dtMin dtMax 1) [] ha hb rfl rfl (loans_entWith _ _ _ _ (by decide)) ⟨rfl, rfl⟩ ?_ ?_ ?_, hf1.1, hf1.2⟩
  · exact ⟨⟨rfl, rfl, rfl, rfl, rfl⟩, ⟨rfl, rfl, rfl, rfl, rfl⟩, by decide +kernel, by decide +kernel, by decide +kernel, rfl, rfl, rfl, rfl⟩
  · rw [acts_entWith]
  · rw [acts_entWith]

/-- a loan from 15 December 2016, over three months at 12 % a year -/
def loanRes (name : String) (x : ℚ) : Res Activity := newLoan name.toList "Bank/Default".toList "Long Term Borrowing/Loan".toList "Expense/Interest".toList x (12/100) (mkDateTime 2016 12 15 0) 3 1 none
/-- the activity -/
def loanOf (name : String) (x : ℚ) : Activity := match loanRes name x with
  | .ok a => a
  | .error _ => ore name x dtMin dtMax 1

theorem loanRes_eq (name : String) (x : ℚ) (h : (loanRes name x).isOk = true) : loanRes name x = .ok (loanOf name x) := by
  unfold loanOf
  cases hl : loanRes name x with
  | error e => rw [hl] at h; cases h
  | ok a => rfl

/-- a loan of 1500, or one of 1000 and one of 500 -/
example : ∃ e' e1' : Entity, RunOf (monthsOf [loanOf "A" (1000 + 500)] 14) (entWith [loanOf "A" (1000 + 500)]) e' ∧ SameBooks e'.transactions e1'.transactions ∧ (posted e'.transactions).length = 7 := by
  have hp := C158_loans _ _ _ _ _ _ _ _ _ _ _ _ _ _ _ _ _ _ (by norm_num) (by norm_num) (loanRes_eq "A" (1000 + 500) (by decide +kernel)) (loanRes_eq "B" 1000 (by decide +kernel)) (loanRes_eq "C" 500 (by decide +kernel))
  obtain ⟨a, ha, hf⟩ := runOf_val (m := monthsOf [loanOf "A" (1000 + 500)] 14) (fun e => (posted e.transactions).length) rfl 7 (by decide +kernel)
  obtain ⟨b, hb, -⟩ := runOf_val (m := monthsOf [loanOf "B" 1000, loanOf "C" 500] 14) (fun _ => ()) rfl () (by decide +kernel)
  refine ⟨a, b, ha, C158_amounts _ _ _ _ a b _ _ _ [] ha hb rfl rfl (loans_entWith _ _ _ _ (by decide +kernel)) ⟨rfl, rfl⟩ hp ?_ ?_, hf⟩
  · rw [acts_entWith]
  · rw [acts_entWith]

/-- 5 a month, until 15 June and from then on -/
example : ∃ e' e1' : Entity, SameBooks e'.transactions e1'.transactions ∧ flow "Bank/Default".toList "Sales/Ore".toList (fun d => decide (d < mkDateTime 2017 12 1 0)) (posted e'.transactions) = 45 := by
  obtain ⟨a, ha, hf⟩ := runOf_val (m := monthsOf [ore "A" 5 (mkDateTime 2017 2 10 0) dtMax 1] 14) (fun e => flow "Bank/Default".toList "Sales/Ore".toList (fun d => decide (d < mkDateTime 2017 12 1 0)) (posted e.transactions)) rfl 45 (by decide +kernel)
  obtain ⟨b, hb, -⟩ := runOf_val (m := monthsOf [ore "B" 5 (mkDateTime 2017 2 10 0) (mkDateTime 2017 6 15 0) 1, ore "C" 5 (mkDateTime 2017 6 15 0) dtMax 1] 14) (fun _ => ()) rfl () (by decide +kernel)
  refine ⟨a, b, C158_times _ _ _ _ a b (ore "A" 5 (mkDateTime 2017 2 10 0) dtMax 1) (ore "B" 5 (mkDateTime 2017 2 10 0) (mkDateTime 2017 6 15 0) 1) (ore "C" 5 (mkDateTime 2017 6 15 0) dtMax 1) [] (mkDateTime 2017 6 15 0)
    ha hb rfl rfl (loans_entWith _ _ _ _ (by decide)) ⟨rfl, rfl⟩ ?_ rfl ⟨_, _, _, rfl⟩ ⟨7, by decide, by decide +kernel⟩ ?_ ?_, hf⟩
  · exact ⟨⟨rfl, rfl, rfl, rfl⟩, ⟨rfl, rfl, rfl, rfl⟩, ⟨rfl, rfl⟩, ⟨rfl, rfl⟩, ⟨rfl, rfl⟩, by decide +kernel, by decide +kernel, by decide +kernel, by decide +kernel⟩
  · rw [acts_entWith]
  · rw [acts_entWith]

/-- two activities in either order -/
example : ∃ e' e1' : Entity, SameBooks e'.transactions e1'.transactions ∧ e'.transactions ≠ e1'.transactions := by
  obtain ⟨a, ha, hf⟩ := runOf_val (m := monthsOf [ore "A" 5 dtMin dtMax 1, ore "B" 7 dtMin dtMax 2] 14) (fun e => (e.transactions.map (·.amount))[1]?) rfl (some 5) (by decide +kernel)
  obtain ⟨b, hb, hg⟩ := runOf_val (m := monthsOf [ore "B" 7 dtMin dtMax 2, ore "A" 5 dtMin dtMax 1] 14) (fun e => (e.transactions.map (·.amount))[1]?) rfl (some 7) (by decide +kernel)
  refine ⟨a, b, C158_order _ _ _ _ a b ha hb rfl rfl (loans_entWith _ _ _ _ (by decide)) ⟨rfl, rfl⟩ ?_, ?_⟩
  · rw [acts_entWith, acts_entWith]; exact List.Perm.swap _ _ _
  · intro h; rw [h, hg] at hf; exact absurd hf (by decide +kernel)

/-- **C158 (violated).** An activity that executes every third month, planned in two halves, is not executed as often as planned whole, and one with interval 0 is executed twice in the month where the halves meet. -/
theorem C158_times_violated :
    (∀ iv : Int, Halves (mkDateTime 2017 6 15 0) (ore "A" 5 dtMin dtMax iv) (ore "B" 5 dtMin (mkDateTime 2017 6 15 0) iv) (ore "C" 5 (mkDateTime 2017 6 15 0) dtMax iv)) ∧
    postings (monthsOf [ore "A" 5 dtMin dtMax 3] 9) = .ok [[(mkDateTime 2017 3 1 0, 5), (mkDateTime 2017 6 1 0, 5)]] ∧
    postings (monthsOf [ore "B" 5 dtMin (mkDateTime 2017 6 15 0) 3, ore "C" 5 (mkDateTime 2017 6 15 0) dtMax 3] 9) = .ok [[(mkDateTime 2017 3 1 0, 5), (mkDateTime 2017 9 1 0, 5)]] ∧
    postings (monthsOf [ore "A" 5 (mkDateTime 2017 5 10 0) (mkDateTime 2017 8 10 0) 0] 9) = .ok [[(mkDateTime 2017 6 1 0, 5), (mkDateTime 2017 7 1 0, 5), (mkDateTime 2017 8 1 0, 5), (mkDateTime 2017 9 1 0, 5)]] ∧
    postings (monthsOf [ore "B" 5 (mkDateTime 2017 5 10 0) (mkDateTime 2017 6 15 0) 0, ore "C" 5 (mkDateTime 2017 6 15 0) (mkDateTime 2017 8 10 0) 0] 9) =
      .ok [[(mkDateTime 2017 6 1 0, 5), (mkDateTime 2017 7 1 0, 5), (mkDateTime 2017 7 1 0, 5), (mkDateTime 2017 8 1 0, 5), (mkDateTime 2017 9 1 0, 5)]] := by
  refine ⟨fun iv => ⟨⟨rfl, rfl, rfl, rfl⟩, ⟨rfl, rfl, rfl, rfl⟩, ⟨rfl, rfl⟩, ⟨rfl, rfl⟩, ⟨rfl, rfl⟩, ?_, ?_, ?_, ?_⟩, ?_, ?_, ?_, ?_⟩
  · show dtMin < mkDateTime 2017 6 15 0
    decide +kernel
  · show mkDateTime 2017 6 15 0 < dtMax
    decide +kernel
  · show dtMin ≤ dtMin
    decide
  · show dtMax ≤ dtMax
    exact le_refl _
  all_goals decide +kernel

/-- **C158 (violated).** Whether a run succeeds can depend on the order of the activities: a refund of revenue before the first revenue of the year makes the year end raise. -/
theorem C158_order_violated :
    let rent := newBasic "A".toList "Bank/Default".toList "Other Income/Rent".toList 10 dtMin dtMax 1 none
    let refund := newBasic "B".toList "Other Income/Rent".toList "Bank/Default".toList 4 dtMin dtMax 1 none
    (monthsOf [rent, refund] 14).run.isOk = true ∧ (match (monthsOf [refund, rent] 14).run with | .error e => some e | .ok _ => none) = some .keyError := by
  refine ⟨?_, ?_⟩ <;> decide +kernel

end Auxi.Business.Props
