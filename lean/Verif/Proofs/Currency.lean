import Verif.Spec.Currency
import Mathlib.Tactic.Ring
import Mathlib.Tactic.Linarith
import Mathlib.Tactic.Positivity

/-! Amounts in another unit go through every step of a run and of the reports. -/
namespace Auxi.Business.Spec
open Business Reports Time Ledger

variable {k : ℚ}

theorem pos_iff (hk : 0 < k) (x : ℚ) : (0 < k * x) ↔ 0 < x := mul_pos_iff_of_pos_left hk
theorem neg_iff (hk : 0 < k) (x : ℚ) : (k * x < 0) ↔ x < 0 := by
  constructor
  · intro h; by_contra hn; exact absurd (mul_nonneg hk.le (not_lt.1 hn)) (not_le.2 h)
  · intro h; exact mul_neg_of_pos_of_neg hk h

theorem meets_times (hk : 0 < k) (a : Activity) (ix : ℕ) : (Activity.times k a).meets ix = a.meets ix := by
  unfold Activity.meets Activity.times
  dsimp only
  have hb : Activity.meetsBase { a with kind := Kind.times k a.kind } ix = a.meetsBase ix := rfl
  rw [hb]
  cases a.kind with
  | basic amount dt cr =>
    simp only [Kind.times, gt_iff_lt, pos_iff hk]
  | loan b l i amount r p d m lf =>
    simp only [Kind.times, gt_iff_lt, pos_iff hk]

theorem activity_run_times (hk : 0 < k) (clk : Clock) (a : Activity) :
    (Activity.times k a).run clk = (Activity.times k (a.run clk).1, (a.run clk).2.map (Tx.times k)) := by
  unfold Activity.run
  rw [meets_times hk]
  by_cases h : a.meets clk.ix = false
  · rw [if_pos h, if_pos h]; rfl
  · rw [if_neg h, if_neg h]
    unfold Activity.times
    cases a with
    | mk nm d pp p s e iv si ei pc kd =>
      cases kd with
      | basic amount dt cr => rfl
      | loan b l i amount r p d m lf =>
        simp only [Kind.times]
        by_cases hm : m = 0
        · rw [if_pos hm, if_pos hm]; rfl
        · rw [if_neg hm, if_neg hm]
          simp only [Kind.times, Tx.times, List.map_cons, List.map_nil]
          have e1 : k * lf * r / 12 = k * (lf * r / 12) := by ring
          have e2 : k * lf + (k * lf * r / 12 - k * p) = k * (lf + (lf * r / 12 - p)) := by ring
          rw [e2, e1]
          rfl

theorem activities_run_times (hk : 0 < k) (clk : Clock) (as : List Activity) :
    runActivities clk (as.map (Activity.times k)) = ((runActivities clk as).1.map (Activity.times k), (runActivities clk as).2.map (Tx.times k)) := by
  induction as with
  | nil => rfl
  | cons a as ih => simp only [List.map_cons, runActivities, activity_run_times hk, ih, List.map_append]

mutual
theorem component_run_times (hk : 0 < k) (clk : Clock) : ∀ c : Component, (Component.times k c).run clk = (Component.times k (c.run clk).1, (c.run clk).2.map (Tx.times k))
  | ⟨n, d, pp, p, cs, as⟩ => by
    simp only [Component.times, Component.run, components_run_times hk clk cs, activities_run_times hk, List.map_append]
theorem components_run_times (hk : 0 < k) (clk : Clock) : ∀ cs : List Component,
    runComponents clk (componentsTimes k cs) = (componentsTimes k (runComponents clk cs).1, (runComponents clk cs).2.map (Tx.times k))
  | [] => rfl
  | c :: cs => by
    simp only [componentsTimes, runComponents, component_run_times hk clk c, components_run_times hk clk cs, List.map_append]
end

theorem activity_prepare_times (clk : Clock) (n : ℕ) (a : Activity) : (Activity.times k a).prepare clk n = Activity.times k (a.prepare clk n) := by
  cases a with
  | mk nm d pp p s e iv si ei pc kd => cases kd <;> rfl

mutual
theorem component_prepare_times (clk : Clock) (n : ℕ) : ∀ c : Component, (Component.times k c).prepare clk n = Component.times k (c.prepare clk n)
  | ⟨nm, d, pp, p, cs, as⟩ => by
    simp only [Component.times, Component.prepare, components_prepare_times clk n cs, List.map_map]
    congr 1
    exact List.map_congr_left fun a _ => activity_prepare_times clk n a
theorem components_prepare_times (clk : Clock) (n : ℕ) : ∀ cs : List Component, prepareComponents clk n (componentsTimes k cs) = componentsTimes k (prepareComponents clk n cs)
  | [] => rfl
  | c :: cs => by simp only [componentsTimes, prepareComponents, component_prepare_times clk n c, components_prepare_times clk n cs]
end

/-- The amounts in a dict. -/
def dictTimes {κ : Type} (k : ℚ) (d : Dict κ) : Dict κ := d.map (fun e => (e.1, k * e.2))

theorem dictAdd_times {κ : Type} [DecidableEq κ] (x : κ) (v : ℚ) (d : Dict κ) : dictAdd x (k * v) (dictTimes k d) = dictTimes k (dictAdd x v d) := by
  induction d with
  | nil => rfl
  | cons e d ih =>
    obtain ⟨y, w⟩ := e
    simp only [dictTimes, List.map_cons, dictAdd] at ih ⊢
    split
    · simp only [List.map_cons, mul_add]
    · rw [ih, List.map_cons]

theorem dictMem_times {κ : Type} [DecidableEq κ] (x : κ) (d : Dict κ) : dictMem x (dictTimes k d) = dictMem x d := by
  unfold dictMem dictTimes
  rw [List.any_map]
  rfl

/-- The amounts to be written off. -/
def writeTimes (k : ℚ) (w : WriteOff) : WriteOff := ⟨dictTimes k w.gross, dictTimes k w.inc⟩

theorem classify_times (c : Chart) (w : WriteOff) (t : Tx) : classify c (writeTimes k w) (Tx.times k t) = (classify c w t).map (writeTimes k) := by
  have ha := fun (x : Ref) (d : Dict Ref) => dictAdd_times (k := k) x t.amount d
  have hn := fun (x : Ref) (d : Dict Ref) => dictAdd_times (k := k) x (-t.amount) d
  have hneg : -(k * t.amount) = k * (-t.amount) := by ring
  unfold classify Tx.times
  dsimp only
  cases getRef c.str t.cr with
  | error e => rfl
  | ok cr =>
    cases getRef c.str t.dt with
    | error e => rfl
    | ok dt =>
      change (match cr, dt with | some cr', _ => _ | none, some dt' => _ | none, none => _) = Except.map (writeTimes k) (match cr, dt with | some cr', _ => _ | none, some dt' => _ | none, none => _)
      cases cr with
      | none =>
        cases dt with
        | none => rfl
        | some dt' =>
          dsimp only [writeTimes]
          rw [hneg]
          simp only [hn]
          split
          · rfl
          · split <;> rfl
      | some cr' =>
        dsimp only [writeTimes]
        rw [hneg]
        simp only [ha, hn, dictMem_times]
        split
        · rfl
        · cases dt with
          | none =>
            dsimp only
            split
            · rfl
            · split <;> rfl
          | some dt' =>
            dsimp only
            split
            · rfl
            split
            · rfl
            split
            · rfl
            split
            · rfl
            split
            · split <;> rfl
            split
            · rfl
            split <;> rfl

theorem classifyAll_times (c : Chart) (txs : List Tx) : ∀ w, classifyAll c (writeTimes k w) (txs.map (Tx.times k)) = (classifyAll c w txs).map (writeTimes k) := by
  induction txs with
  | nil => intro w; rfl
  | cons t txs ih =>
    intro w
    simp only [List.map_cons, classifyAll, classify_times]
    cases classify c w t with
    | error e => rfl
    | ok w' => exact ih w'

theorem closing_times (hk : 0 < k) (src : Str) (date : ℤ) (name dt cr : Str) (x : ℚ) : closing src date name dt cr |k * x| = Tx.times k (closing src date name dt cr |x|) := by
  unfold closing Tx.times
  rw [abs_mul, abs_of_pos hk]

theorem grossClosings_times (hk : 0 < k) (c : Chart) (src : Str) (date : ℤ) (d : Dict Ref) : grossClosings c src date (dictTimes k d) = (grossClosings c src date d).map (Tx.times k) := by
  induction d with
  | nil => rfl
  | cons e d ih =>
    obtain ⟨acc, x⟩ := e
    have : dictTimes k ((acc, x) :: d) = (acc, k * x) :: dictTimes k d := rfl
    rw [this]
    simp only [grossClosings, gt_iff_lt, pos_iff hk, neg_iff hk, closing_times hk, ih, List.map_append]
    congr 1
    split
    · rfl
    · split <;> rfl

theorem incClosings_times (hk : 0 < k) (c : Chart) (src : Str) (date : ℤ) (d : Dict Ref) : incClosings c src date (dictTimes k d) = (incClosings c src date d).map (Tx.times k) := by
  induction d with
  | nil => rfl
  | cons e d ih =>
    obtain ⟨acc, x⟩ := e
    have : dictTimes k ((acc, x) :: d) = (acc, k * x) :: dictTimes k d := rfl
    rw [this]
    simp only [incClosings, gt_iff_lt, pos_iff hk, neg_iff hk, closing_times hk, ih, List.map_append]
    congr 1
    split
    · split <;> rfl
    · split
      · split <;> rfl
      · rfl

theorem grossTotal_times (d : Dict Ref) : grossTotal (dictTimes k d) = k * grossTotal d := by
  unfold grossTotal
  have : ∀ s, (dictTimes k d).foldl (fun s e => s + e.2) (k * s) = k * d.foldl (fun s e => s + e.2) s := by
    induction d with
    | nil => intro s; rfl
    | cons e d ih =>
      intro s
      have : dictTimes k (e :: d) = (e.1, k * e.2) :: dictTimes k d := rfl
      rw [this, List.foldl_cons, List.foldl_cons, ← mul_add]
      exact ih _
  have h := this 0
  rwa [mul_zero] at h

theorem incTotal_times (hk : 0 < k) (d : Dict Ref) : ∀ g, incTotal (k * g) (dictTimes k d) = k * incTotal g d := by
  unfold incTotal
  induction d with
  | nil => intro g; rfl
  | cons e d ih =>
    intro g
    have : dictTimes k (e :: d) = (e.1, k * e.2) :: dictTimes k d := rfl
    rw [this, List.foldl_cons, List.foldl_cons, ← ih]
    congr 1
    simp only [gt_iff_lt, pos_iff hk, neg_iff hk]
    split
    · split
      · ring
      · ring
    · rfl

theorem closingTxs_times (hk : 0 < k) (c : Chart) (src : Str) (date : ℤ) (w : WriteOff) : closingTxs c src date (writeTimes k w) = (closingTxs c src date w).map (Tx.times k) := by
  unfold closingTxs
  dsimp only [writeTimes]
  rw [grossTotal_times, incTotal_times hk, grossClosings_times hk, incClosings_times hk]
  simp only [List.map_append]
  congr 1
  · congr 1
    unfold grossSettle
    simp only [gt_iff_lt, pos_iff hk, neg_iff hk, closing_times hk]
    split
    · rfl
    · split <;> rfl
  · unfold retainedClosings
    simp only [gt_iff_lt, pos_iff hk, neg_iff hk]
    split
    · rfl
    · split <;> rfl

theorem yearTxs_times (e : Entity) : (Entity.times k e).yearTxs = e.yearTxs.map (Tx.times k) := by
  unfold Entity.yearTxs Entity.times
  dsimp only
  rw [List.filter_map]
  rfl

theorem yearEnd_times (hk : 0 < k) (clk : Clock) (e : Entity) : (Entity.times k e).yearEnd clk = (e.yearEnd clk).map (Entity.times k) := by
  unfold Entity.yearEnd
  have h1 : (Entity.times k e).currYearEnd = e.currYearEnd := rfl
  have h2 : (Entity.times k e).periodCount = e.periodCount := rfl
  rw [h1, h2]
  split
  · rw [yearTxs_times]
    have h3 : (Entity.times k e).chart = e.chart := rfl
    have h4 := classifyAll_times (k := k) e.chart e.yearTxs ⟨[], []⟩
    have h5 : writeTimes k ⟨[], []⟩ = ⟨[], []⟩ := rfl
    rw [h5] at h4
    rw [h3, h4]
    cases classifyAll e.chart ⟨[], []⟩ e.yearTxs with
    | error err => rfl
    | ok w =>
      simp only [Except.map, closingTxs_times hk]
      unfold Entity.times Entity.advance
      dsimp only
      rw [List.map_append]
  · rfl

theorem entity_run_times (hk : 0 < k) (clk : Clock) (e : Entity) : (Entity.times k e).run clk = (e.run clk).map (Entity.times k) := by
  unfold Entity.run
  have h2 : (Entity.times k e).periodCount = e.periodCount := rfl
  rw [h2]
  split
  · rfl
  · dsimp only
    rw [← yearEnd_times hk]
    congr 1
    unfold Entity.times
    simp only [components_run_times hk, List.map_append]

theorem entity_prepare_times (clk : Clock) (n : ℕ) (e : Entity) : (Entity.times k e).prepare clk n = Entity.times k (e.prepare clk n) := by
  unfold Entity.prepare Entity.times
  simp only [components_prepare_times, List.map_nil]

theorem entities_run_times (hk : 0 < k) (clk : Clock) (es : List Entity) : runEntities clk (es.map (Entity.times k)) = (runEntities clk es).map (·.map (Entity.times k)) := by
  induction es with
  | nil => rfl
  | cons e es ih =>
    simp only [List.map_cons, runEntities, entity_run_times hk, ih]
    cases e.run clk with
    | error err => rfl
    | ok e' =>
      cases runEntities clk es with
      | error err => rfl
      | ok es' => rfl

theorem loop_times (hk : 0 < k) (n : ℕ) : ∀ (clk : Clock) (es : List Entity), loop n clk (es.map (Entity.times k)) = (loop n clk es).map (fun r => (r.1, r.2.map (Entity.times k))) := by
  induction n with
  | zero => intro clk es; rfl
  | succ n ih =>
    intro clk es
    simp only [loop, entities_run_times hk]
    cases runEntities clk es with
    | error err => rfl
    | ok es' => exact ih _ _

theorem model_run_times (hk : 0 < k) (m : Model) : (Model.times k m).run = m.run.map (Model.times k) := by
  unfold Model.run
  have h1 : (Model.times k m).prepare = Model.times k m.prepare := by
    unfold Model.prepare Model.times
    simp only [List.map_map]
    congr 1
    exact List.map_congr_left fun e _ => entity_prepare_times _ _ e
  rw [h1]
  have h2 : loop (Model.times k m.prepare).periodCount (Model.times k m.prepare).clock (Model.times k m.prepare).entities =
      (loop m.prepare.periodCount m.prepare.clock m.prepare.entities).map (fun r => (r.1, r.2.map (Entity.times k))) := loop_times hk _ _ _
  dsimp only
  rw [h2]
  cases loop m.prepare.periodCount m.prepare.clock m.prepare.entities with
  | error err => rfl
  | ok r => obtain ⟨clk, es⟩ := r; rfl

/-! ## Reports -/

theorem sortByDate_times (txs : List RTx) : sortByDate (txs.map (RTx.times k)) = (sortByDate txs).map (·.map (RTx.times k)) := by
  unfold sortByDate
  simp only [List.any_map]
  have h1 : ((fun t : RTx => t.date.isDate) ∘ RTx.times k) = fun t => t.date.isDate := rfl
  have h2 : ((fun t : RTx => !t.date.isDate) ∘ RTx.times k) = fun t => !t.date.isDate := rfl
  rw [h1, h2]
  split
  · rfl
  · simp only [Except.map, List.map_insertionSort (r := fun a b : RTx => a.date.key ≤ b.date.key) (s := fun a b : RTx => a.date.key ≤ b.date.key) (RTx.times k) txs (fun _ _ _ _ => Iff.rfl)]

theorem txRows_times (comp : Str) (start stop : When) (txs : List RTx) :
    txRows comp start stop (txs.map (RTx.times k)) = (txRows comp start stop txs).map (fun r => (tableTimes k r.1, k * r.2)) := by
  induction txs with
  | nil => simp only [List.map_nil, txRows, Except.map, mul_zero]; rfl
  | cons t ts ih =>
    simp only [List.map_cons, txRows, RTx.times]
    cases t.source with
    | none => rfl
    | some s =>
      dsimp only
      split
      · cases within start stop t.date with
        | error e => rfl
        | ok b =>
          cases b with
          | false => exact ih
          | true =>
            dsimp only
            rw [ih]
            cases txRows comp start stop ts with
            | error e => rfl
            | ok r =>
              obtain ⟨rows, tot⟩ := r
              simp only [Except.map, mul_add]
              congr 2
              unfold tableTimes
              rw [List.map_cons]
              congr 1
              unfold txRow
              simp only [List.map_cons, List.map_nil, Cell.times]
              cases t.dt <;> cases t.cr <;> rfl
      · exact ih

theorem transactionList_times (comp : Str) (start stop : When) (txs : List RTx) :
    transactionList comp start stop (txs.map (RTx.times k)) = (transactionList comp start stop txs).map (tableTimes k) := by
  unfold transactionList
  rw [sortByDate_times]
  cases sortByDate txs with
  | error e => rfl
  | ok l =>
    simp only [Except.map]
    have := txRows_times (k := k) comp start stop l
    rw [this]
    cases txRows comp start stop l with
    | error e => rfl
    | ok r =>
      obtain ⟨rows, tot⟩ := r
      simp only [Except.map]
      congr 1
      unfold tableTimes
      simp only [List.map_cons, List.map_append, List.map_nil]
      rfl

/-- The amounts of a balance sheet. -/
def sheetTimes (k : ℚ) (b : Sheet) : Sheet := ⟨dictTimes k b.assets, dictTimes k b.liabilities, dictTimes k b.equity⟩

theorem credit_times (b : Sheet) (ty : AccountType) (acc : Str) (x : ℚ) : (sheetTimes k b).credit ty acc (k * x) = sheetTimes k (b.credit ty acc x) := by
  have h1 := fun (d : Dict Str) => dictAdd_times (k := k) acc x d
  have h2 := fun (d : Dict Str) => dictAdd_times (k := k) acc (-x) d
  have hneg : -(k * x) = k * (-x) := by ring
  unfold Sheet.credit sheetTimes
  cases ty <;> simp only [hneg, h1, h2]

theorem debit_times (b : Sheet) (ty : AccountType) (acc : Str) (x : ℚ) : (sheetTimes k b).debit ty acc (k * x) = sheetTimes k (b.debit ty acc x) := by
  have h1 := fun (d : Dict Str) => dictAdd_times (k := k) acc x d
  have h2 := fun (d : Dict Str) => dictAdd_times (k := k) acc (-x) d
  have hneg : -(k * x) = k * (-x) := by ring
  unfold Sheet.debit sheetTimes
  cases ty <;> simp only [hneg, h1, h2]

theorem sheetLoop_times (s : Structure) (stop : When) (txs : List RTx) : ∀ b, sheetLoop s stop (sheetTimes k b) (txs.map (RTx.times k)) = (sheetLoop s stop b txs).map (sheetTimes k) := by
  induction txs with
  | nil => intro b; rfl
  | cons t ts ih =>
    intro b
    simp only [List.map_cons, sheetLoop, RTx.times]
    cases t.date.le stop with
    | error e => rfl
    | ok x =>
      cases x with
      | false => exact ih b
      | true =>
        dsimp only
        cases acctType s t.cr with
        | error e => rfl
        | ok cty =>
          dsimp only
          cases acctType s t.dt with
          | error e => rfl
          | ok dty =>
            dsimp only
            rw [credit_times, debit_times]
            exact ih _

theorem dictSum_times {κ : Type} (d : List (κ × ℚ)) : ((dictTimes k d).map (·.2)).sum = k * (d.map (·.2)).sum := by
  induction d with
  | nil => simp [dictTimes]
  | cons e d ih =>
    have : dictTimes k (e :: d) = (e.1, k * e.2) :: dictTimes k d := rfl
    rw [this]
    simp only [List.map_cons, List.sum_cons, ih]
    ring

theorem setCell_times (ix col : ℕ) (v : Cell) (rows : Table) : setCell ix col (Cell.times k v) (tableTimes k rows) = (setCell ix col v rows).map (tableTimes k) := by
  unfold setCell
  have hl : (tableTimes k rows).length = rows.length := by simp [tableTimes]
  rw [hl]
  split
  · simp only [Except.map]
    congr 1
    unfold tableTimes
    apply List.ext_getElem?
    intro i
    simp only [List.getElem?_modify, List.getElem?_map]
    cases rows[i]? with
    | none => rfl
    | some r =>
      by_cases h : ix = i
      · simp [h, List.map_set]
      · simp [h]
  · rfl

theorem putEntries_times (c1 c2 : ℕ) (d : Dict Str) : ∀ (ix : ℕ) (rows : Table),
    putEntries c1 c2 (dictTimes k d) ix (tableTimes k rows) = (putEntries c1 c2 d ix rows).map (fun r => (r.1, tableTimes k r.2)) := by
  induction d with
  | nil => intro ix rows; rfl
  | cons e d ih =>
    intro ix rows
    obtain ⟨key, v⟩ := e
    have : dictTimes k ((key, v) :: d) = (key, k * v) :: dictTimes k d := rfl
    rw [this]
    simp only [putEntries]
    have h1 := setCell_times (k := k) ix c1 (.text key) rows
    have h1' : Cell.times k (.text key) = .text key := rfl
    rw [h1'] at h1
    rw [h1]
    cases setCell ix c1 (.text key) rows with
    | error e => rfl
    | ok rows1 =>
      change (setCell ix c2 (.money (k * v)) (tableTimes k rows1) >>= fun rows => putEntries c1 c2 (dictTimes k d) (ix + 1) rows) =
        Except.map (fun r => (r.1, tableTimes k r.2)) (setCell ix c2 (.money v) rows1 >>= fun rows => putEntries c1 c2 d (ix + 1) rows)
      have h2 := setCell_times (k := k) ix c2 (.money v) rows1
      have h2' : Cell.times k (.money v) = .money (k * v) := rfl
      rw [h2'] at h2
      rw [h2]
      cases setCell ix c2 (.money v) rows1 with
      | error e => rfl
      | ok rows2 => exact ih _ _

theorem dictUpd_times (x : Str) (v w : ℚ) (d : Dict Str) : dictUpd x (k * v) (k * w) (dictTimes k d) = dictTimes k (dictUpd x v w d) := by
  induction d with
  | nil => rfl
  | cons e d ih =>
    obtain ⟨y, z⟩ := e
    simp only [dictTimes, List.map_cons, dictUpd] at ih ⊢
    split
    · simp only [List.map_cons, mul_add]
    · rw [ih, List.map_cons]

/-- The amounts of an income statement. -/
def incomeTimes (k : ℚ) (b : Income) : Income := ⟨dictTimes k b.income, dictTimes k b.expenses⟩

theorem income_credit_times (b : Income) (ty : AccountType) (acc : Str) (x : ℚ) : (incomeTimes k b).credit ty acc (k * x) = incomeTimes k (b.credit ty acc x) := by
  have h := fun (v w : ℚ) (d : Dict Str) => dictUpd_times (k := k) acc v w d
  have hneg : -(k * x) = k * (-x) := by ring
  unfold Income.credit incomeTimes
  cases ty <;> simp only [hneg, h]

theorem income_debit_times (b : Income) (ty : AccountType) (acc : Str) (x : ℚ) : (incomeTimes k b).debit ty acc (k * x) = incomeTimes k (b.debit ty acc x) := by
  have h := fun (v w : ℚ) (d : Dict Str) => dictUpd_times (k := k) acc v w d
  have hneg : -(k * x) = k * (-x) := by ring
  unfold Income.debit incomeTimes
  cases ty <;> simp only [hneg, h]

theorem income_add_times (b : Income) (t : RTx) (cty dty : AccountType) : (incomeTimes k b).add (RTx.times k t) cty dty = incomeTimes k (b.add t cty dty) := by
  unfold Income.add RTx.times
  dsimp only
  rw [income_credit_times]
  by_cases h1 : t.closingCr = false ∧ t.closingDt = false ∧ t.cr ≠ some [] <;>
    by_cases h2 : t.closingCr = false ∧ t.closingDt = false ∧ t.dt ≠ some [] <;>
    first
      | rw [if_pos h1, if_pos h2, if_pos h1, if_pos h2, income_debit_times]
      | rw [if_pos h1, if_neg h2, if_pos h1, if_neg h2]
      | rw [if_neg h1, if_pos h2, if_neg h1, if_pos h2, income_debit_times]
      | rw [if_neg h1, if_neg h2, if_neg h1, if_neg h2]

theorem incomeLoop_times (s : Structure) (comp : Str) (start stop : When) (txs : List RTx) :
    ∀ b, incomeLoop s comp start stop (incomeTimes k b) (txs.map (RTx.times k)) = (incomeLoop s comp start stop b txs).map (incomeTimes k) := by
  induction txs with
  | nil => intro b; rfl
  | cons t ts ih =>
    intro b
    have e1 : (RTx.times k t).source = t.source := rfl
    have e2 : (RTx.times k t).date = t.date := rfl
    have e3 : (RTx.times k t).cr = t.cr := rfl
    have e4 : (RTx.times k t).dt = t.dt := rfl
    simp only [List.map_cons, incomeLoop, e1, e2, e3, e4]
    cases t.source with
    | none => rfl
    | some src =>
      dsimp only
      split
      · cases within start stop t.date with
        | error e => rfl
        | ok x =>
          cases x with
          | false => exact ih b
          | true =>
            dsimp only
            cases acctType s t.cr with
            | error e => rfl
            | ok cty =>
              dsimp only
              cases acctType s t.dt with
              | error e => rfl
              | ok dty =>
                dsimp only
                rw [income_add_times]
                exact ih _
      · exact ih b

theorem filter_times (p : Str → Bool) (d : Dict Str) : (dictTimes k d).filter (fun e => p e.1) = dictTimes k (d.filter (fun e => p e.1)) := by
  unfold dictTimes
  rw [List.filter_map]
  rfl

theorem incomeTable_times (hk : 0 < k) (b : Income) : incomeTable (incomeTimes k b) = tableTimes k (incomeTable b) := by
  unfold incomeTable
  have hs : ∀ d : Dict Str, dictSum (dictTimes k d) = k * dictSum d := fun d => dictSum_times d
  have hf1 := filter_times (k := k) isCos b.expenses
  have hf2 := filter_times (k := k) (fun s => !isCos s) b.expenses
  dsimp only [incomeTimes]
  rw [hf1, hf2]
  simp only [hs, ← mul_sub, neg_iff hk, abs_mul, abs_of_pos hk]
  unfold tableTimes
  simp only [List.map_append, List.map_cons, List.map_nil, List.map_map]
  have m1 : ∀ d : Dict Str, (dictTimes k d).map (fun e => [Cell.text e.1, tx "", Cell.money e.2]) = d.map ((fun r => List.map (Cell.times k) r) ∘ fun e => [Cell.text e.1, tx "", Cell.money e.2]) := by
    intro d; unfold dictTimes; rw [List.map_map]; rfl
  have m2 : ∀ d : Dict Str, (dictTimes k d).map (fun e => [Cell.text e.1, Cell.money e.2, tx ""]) = d.map ((fun r => List.map (Cell.times k) r) ∘ fun e => [Cell.text e.1, Cell.money e.2, tx ""]) := by
    intro d; unfold dictTimes; rw [List.map_map]; rfl
  rw [m1, m2, m2]
  split <;> rfl

theorem incomeStatement_times (hk : 0 < k) (s : Structure) (comp : Str) (start stop : When) (txs : List RTx) :
    incomeStatement s comp start stop (txs.map (RTx.times k)) = (incomeStatement s comp start stop txs).map (tableTimes k) := by
  unfold incomeStatement incomeSums
  have h := incomeLoop_times (k := k) s comp start stop txs ⟨[], []⟩
  have h0 : incomeTimes k ⟨[], []⟩ = ⟨[], []⟩ := rfl
  rw [h0] at h
  rw [h]
  cases incomeLoop s comp start stop ⟨[], []⟩ txs with
  | error e => rfl
  | ok b => simp only [Except.map, incomeTable_times hk]

theorem setCell_text_times (ix col : ℕ) (t : Cell) (ht : Cell.times k t = t) (rows : Table) : setCell ix col t (tableTimes k rows) = (setCell ix col t rows).map (tableTimes k) := by
  have h := setCell_times (k := k) ix col t rows
  rwa [ht] at h

theorem bind_times {α β : Type} {x y : Res α} {f g : α → Res β} (F : α → α) (G : β → β) (hx : x = y.map F) (hf : ∀ a, f (F a) = (g a).map G) :
    (x >>= f) = (y >>= g).map G := by
  subst hx
  cases y with
  | error e => rfl
  | ok a => exact hf a

theorem sheetTable_times (b : Sheet) : sheetTable (sheetTimes k b) = (sheetTable b).map (tableTimes k) := by
  have hlen : ∀ d : Dict Str, (dictTimes k d).length = d.length := fun d => by simp [dictTimes]
  have hs : ∀ d : Dict Str, dictSum (dictTimes k d) = k * dictSum d := fun d => dictSum_times d
  unfold sheetTable
  dsimp only [sheetTimes]
  simp only [hlen, hs]
  have hr : ∀ n : ℕ, (List.replicate n [tx "", tx "", tx "", tx "", tx ""] : Table) = tableTimes k (List.replicate n [tx "", tx "", tx "", tx "", tx ""]) := by
    intro n; unfold tableTimes; rw [List.map_replicate]; rfl
  refine bind_times (fun r => (r.1, tableTimes k r.2)) _ ?_ ?_
  · conv_lhs => rw [hr]
    exact putEntries_times 0 1 b.assets 0 _
  rintro ⟨i0, rows⟩
  refine bind_times (tableTimes k) _ (setCell_text_times _ _ _ rfl _) fun rows => ?_
  refine bind_times (tableTimes k) _ (setCell_text_times _ _ _ rfl _) fun rows => ?_
  refine bind_times (fun r => (r.1, tableTimes k r.2)) _ (putEntries_times 2 3 b.liabilities 2 _) ?_
  rintro ⟨ix, rows⟩
  refine bind_times (tableTimes k) _ (setCell_text_times _ _ _ rfl _) fun rows => ?_
  refine bind_times (tableTimes k) _ (setCell_times ix 4 (.money (dictSum b.liabilities)) _) fun rows => ?_
  refine bind_times (tableTimes k) _ (setCell_text_times _ _ _ rfl _) fun rows => ?_
  refine bind_times (tableTimes k) _ (setCell_text_times _ _ _ rfl _) fun rows => ?_
  refine bind_times (tableTimes k) _ (setCell_text_times _ _ _ rfl _) fun rows => ?_
  refine bind_times (fun r => (r.1, tableTimes k r.2)) _ (putEntries_times 2 3 b.equity (ix + 4) _) ?_
  rintro ⟨iy, rows⟩
  refine bind_times (tableTimes k) _ (setCell_text_times _ _ _ rfl _) fun rows => ?_
  refine bind_times (tableTimes k) _ (setCell_times iy 4 (.money (dictSum b.equity)) _) fun rows => ?_
  simp only [← mul_add]
  unfold tableTimes
  simp only [Except.map, pure, Except.pure, List.map_append, List.map_cons, List.map_nil]
  rfl

theorem balanceSheet_times (s : Structure) (stop : When) (txs : List RTx) :
    balanceSheet s stop (txs.map (RTx.times k)) = (balanceSheet s stop txs).map (tableTimes k) := by
  unfold balanceSheet sheetSums
  have h := sheetLoop_times (k := k) s stop txs ⟨[], [], []⟩
  have h0 : sheetTimes k ⟨[], [], []⟩ = ⟨[], [], []⟩ := rfl
  rw [h0] at h
  exact bind_times (sheetTimes k) _ h sheetTable_times

/-- A loan of another amount. -/
theorem newLoan_times (name bank loan interest : Str) (amount rate : ℚ) (start duration interval : Int) (description : Option Str) :
    newLoan name bank loan interest (k * amount) rate start duration interval description =
      (newLoan name bank loan interest amount rate start duration interval description).map (Activity.times k) := by
  have hp : monthlyPayment (k * amount) rate duration = (monthlyPayment amount rate duration).map (k * ·) := by
    unfold monthlyPayment
    dsimp only
    by_cases h1 : 1 + rate / 12 = 0
    · rw [if_pos h1, if_pos h1]; rfl
    · rw [if_neg h1, if_neg h1]
      by_cases h2 : 1 - 1 / (1 + rate / 12) ^ duration = 0
      · rw [if_pos h2, if_pos h2]; rfl
      · rw [if_neg h2, if_neg h2]
        simp only [Except.map]
        congr 1
        ring
  unfold newLoan
  rw [hp]
  cases monthlyPayment amount rate duration <;> rfl

end Auxi.Business.Spec
