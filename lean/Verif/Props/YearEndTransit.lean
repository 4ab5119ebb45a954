import Verif.Proofs.YearEndTransit
import Verif.Props.BusinessOps

/-!
# Properties C37 (exactly when a year end raises), C129 (the accounts it passes amounts through), C130 (removal by name)
-/
namespace Auxi.Business.Props
open Auxi.Business Auxi.Business.Spec Ledger Time

/-! ## C37 -/

theorem ref_of_account {c : Chart} {p : Str} {a : Account} (h : accountAt c p = some a) :
    ∃ r, getRef c.str p = .ok (some r) ∧ ref c p = some r ∧ r.accountType = a.accountType := by
  obtain ⟨pa, h1, _⟩ := (getRef_spec c.str p).1 a h
  exact ⟨_, h1, by simp [ref, h1], rfl⟩

theorem ref_inj {c : Chart} (gc : GoodChart c) {p q : Str} {r : Ref} (h1 : ref c p = some r) (h2 : ref c q = some r) : p = q := by
  rw [← gc.path p r h1, gc.path q r h2]

theorem plain_iff {c : Chart} (gc : GoodChart c) {p : Str} {a : Account} {r : Ref} (ha : accountAt c p = some a)
    (hr : ref c p = some r) (ht : r.accountType = a.accountType) : PlainRevenue c p ↔ r.revNT = true := by
  unfold PlainRevenue Ref.revNT
  rw [gc.trading, hr, ha]
  simp [ht]

/-- **C37 (exactly when the year end raises).** In a period that closes a year, when the accounts of the year's
transactions exist and no transaction has income statement accounts on both sides: the period runs to its end if every
debit of a revenue account outside sales and cost of sales comes after a credit of the same account in the year, and
stops with a `KeyError` otherwise. -/
theorem C37_exact (clk : Clock) (e : Entity) (hc : ReachableChart e.chart) (hlt : (clk.ix : Int) < e.periodCount)
    (hnow : e.currYearEnd ≤ clk.now) (year : List Tx)
    (hy : year = inWindow e.prevYearEnd e.currYearEnd (e.transactions ++ (runComponents clk e.components).2))
    (hex : ∀ t ∈ year, (accountAt e.chart t.cr).isSome = true ∧ (accountAt e.chart t.dt).isSome = true)
    (hg : OneIncomeSide e.chart year) :
    ((∀ pre t post, year = pre ++ t :: post → PlainRevenue e.chart t.dt → ∃ t' ∈ pre, t'.cr = t.dt) →
      ∃ e', e.run clk = .ok e') ∧
    (∀ pre t post, year = pre ++ t :: post → PlainRevenue e.chart t.dt → (∀ t' ∈ pre, t'.cr ≠ t.dt) →
      e.run clk = .error .keyError) := by
  have gc := reachable_good hc
  have hg' := guard_internal gc hg
  have hrefs : ∀ t ∈ year, ∃ k d, getRef e.chart.str t.cr = .ok (some k) ∧ getRef e.chart.str t.dt = .ok (some d) ∧
      ¬ (k.income = true ∧ d.income = true) := by
    intro t ht
    obtain ⟨x1, x2⟩ := hex t ht
    obtain ⟨a, ha⟩ := Option.isSome_iff_exists.1 x1
    obtain ⟨b, hb⟩ := Option.isSome_iff_exists.1 x2
    obtain ⟨k, k1, k2, _⟩ := ref_of_account ha
    obtain ⟨d, d1, d2, _⟩ := ref_of_account hb
    refine ⟨k, d, k1, d1, ?_⟩
    have := hg' t ht
    rw [k2, d2] at this
    exact this
  have hrun : e.run clk = match classifyAll e.chart ⟨[], []⟩ year with
      | .error err => .error err
      | .ok w => .ok { ({ e with components := (runComponents clk e.components).1, transactions := e.transactions ++ (runComponents clk e.components).2 } : Entity).advance with
          transactions := e.transactions ++ (runComponents clk e.components).2 ++ closingTxs e.chart e.path (e.currYearEnd - 1000000) w } := by
    unfold Entity.run
    rw [if_neg (by omega)]
    dsimp only
    unfold Entity.yearEnd
    rw [if_pos (.inl hnow)]
    have : Entity.yearTxs { e with components := (runComponents clk e.components).1, transactions := e.transactions ++ (runComponents clk e.components).2 } = year := by
      rw [hy]; rfl
    rw [this]
    rfl
  obtain ⟨i1, i2⟩ := classifyAll_exact (c := e.chart) year [] ⟨[], []⟩ hrefs (by intro r _; simp [dictMem])
  constructor
  · intro H
    obtain ⟨w, hw⟩ := i1 (by
      intro pre t post r hp hr hrn
      have ht : t ∈ year := by rw [hp]; simp
      obtain ⟨b, hb⟩ := Option.isSome_iff_exists.1 (hex t ht).2
      obtain ⟨d, _, d2, d3⟩ := ref_of_account hb
      rw [d2] at hr; simp only [Option.some.injEq] at hr; subst hr
      obtain ⟨t', h1, h2⟩ := H pre t post hp ((plain_iff gc hb d2 d3).2 hrn)
      exact ⟨t', by simpa using h1, by rw [h2]; exact d2⟩)
    rw [hrun, hw]
    exact ⟨_, rfl⟩
  · intro pre t post hp hpl hno
    have ht : t ∈ year := by rw [hp]; simp
    obtain ⟨b, hb⟩ := Option.isSome_iff_exists.1 (hex t ht).2
    obtain ⟨d, _, d2, d3⟩ := ref_of_account hb
    have := i2 pre t post d hp d2 ((plain_iff gc hb d2 d3).1 hpl) (by
      intro t' ht' h'
      exact hno t' (by simpa using ht') (ref_inj gc h' d2))
    rw [hrun, this]

/-- An entity that receives rent and then refunds some of it, in every period. -/
def entRent : Entity := { Entity.new "R".toList chart0 with components := [{ (Component.new "C".toList none) with
  activities := [newBasic "In".toList "Bank/Default".toList "Other Income/Rent".toList 10 dtMin dtMax 1 none,
    newBasic "Out".toList "Other Income/Rent".toList "Bank/Default".toList 4 dtMin dtMax 1 none] }] }

/-- The state of an entity after the periods before `i`. -/
def upTo (i : Nat) (e : Entity) : Entity :=
  (List.range i).foldl (fun e j => match e.run (clockAt clkM j) with | .ok e' => e' | .error _ => e) (e.prepare (clockAt clkM 0) 14)

/-- Both outcomes are met: period 12 closes the year of `entRent`, and raises for `entRefund`. -/
example : ((upTo 12 entRent).run (clockAt clkM 12)).isOk = true ∧
    (upTo 12 entRent).currYearEnd ≤ (clockAt clkM 12).now ∧
    (inWindow (upTo 12 entRent).prevYearEnd (upTo 12 entRent).currYearEnd
      ((upTo 12 entRent).transactions ++ (runComponents (clockAt clkM 12) (upTo 12 entRent).components).2)).length = 24 ∧
    (inWindow (upTo 12 entRent).prevYearEnd (upTo 12 entRent).currYearEnd
      ((upTo 12 entRent).transactions ++ (runComponents (clockAt clkM 12) (upTo 12 entRent).components).2)).all (fun t =>
        (accountAt chart0 t.cr).isSome && (accountAt chart0 t.dt).isSome && !(IncomeAcc chart0 t.dt && IncomeAcc chart0 t.cr)) = true ∧
    (match (upTo 12 entRefund).run (clockAt clkM 12) with | .error e => some e | .ok _ => none) = some .keyError := by
  refine ⟨by decide +kernel, by decide +kernel, by decide +kernel, by decide +kernel, by decide +kernel⟩

/-! ## C129 -/

theorem untouched_net {p : Str} {txs : List Tx} (h : Untouched p txs) : netCredit p txs = 0 := by
  apply List.sum_eq_zero
  intro x hx
  simp only [List.mem_map] at hx
  obtain ⟨t, ht, rfl⟩ := hx
  obtain ⟨h1, h2⟩ := h t ht
  simp [h1, h2]

theorem untouched_keys {c : Chart} (gc : GoodChart c) {p : Str} {txs : List Tx} (h : Untouched p txs) {d : Dict Ref}
    (hd : ∀ e ∈ d, (∃ e' ∈ ([] : Dict Ref), e'.1 = e.1) ∨ ∃ t ∈ txs, ref c t.cr = some e.1 ∨ ref c t.dt = some e.1) :
    ∀ e ∈ d, e.1.path ≠ p := by
  intro e he hp
  rcases hd e he with ⟨_, h', _⟩ | ⟨t, ht, h' | h'⟩
  · simp at h'
  · rw [gc.path _ _ h'] at hp; exact (h t ht).1 hp
  · rw [gc.path _ _ h'] at hp; exact (h t ht).2 hp

/-- **C129 is false of the code for the gross profit account.** In every year closed during a run (no transaction with
income statement accounts on both sides, no activity booking on the account itself) the gross profit account ends at
minus twice the year's gross profit instead of at zero. -/
theorem C129_gross_profit_account (clk : Clock) (n : Nat) (e e' : Entity) (h : runEntityFor clk n e = .ok e')
    (hc : ReachableChart e.chart) (a b : Int) (hab : (a, b) ∈ yearsClosed clk n 0 (e.prepare (clockAt clk 0) n))
    (hg : OneIncomeSide e.chart (inWindow a b (posted e'.transactions)))
    (hu : Untouched e.chart.grossProf (inWindow a b (posted e'.transactions)))
    (h1 : e.chart.grossProf ≠ e.chart.incSum) (h2 : e.chart.grossProf ≠ e.chart.retEarn) :
    netCredit e.chart.grossProf (inWindow a b e'.transactions) =
      -2 * grossProfit e.chart (inWindow a b (posted e'.transactions)) := by
  obtain ⟨w, hw, hs⟩ := closed_year h hab
  have gc := reachable_good hc
  obtain ⟨b1, b2, b3⟩ := classifyAll_gross gc _ hw (guard_internal gc hg)
  have hgp : dictSum w.gross = grossProfit e.chart (inWindow a b (posted e'.transactions)) := by
    rw [b1]; simp only [dictSum, List.map_nil, List.sum_nil, zero_add]; rfl
  rw [hs, netCredit_append, untouched_net hu]
  simp only [closingTxs, netCredit_append]
  rw [netCredit_gross_self _ _ _ _ (untouched_keys gc hu b2), netCredit_inc_other _ _ _ _ h1 _ (untouched_keys gc hu b3),
    settle_gross _ _ _ _ h1, netCredit_retained _ _ _ _ _ h1, grossTotal_eq, if_neg h2, hgp]
  ring

/-- **C129 for the income summary account.** In every such year it ends at the net income less its size: at zero unless
the year made a loss. -/
theorem C129_income_summary_account (clk : Clock) (n : Nat) (e e' : Entity) (h : runEntityFor clk n e = .ok e')
    (hc : ReachableChart e.chart) (a b : Int) (hab : (a, b) ∈ yearsClosed clk n 0 (e.prepare (clockAt clk 0) n))
    (hg : OneIncomeSide e.chart (inWindow a b (posted e'.transactions)))
    (hu : Untouched e.chart.incSum (inWindow a b (posted e'.transactions)))
    (h1 : e.chart.grossProf ≠ e.chart.incSum) (h2 : e.chart.retEarn ≠ e.chart.incSum) :
    netCredit e.chart.incSum (inWindow a b e'.transactions) =
      netIncome e.chart (inWindow a b (posted e'.transactions)) - |netIncome e.chart (inWindow a b (posted e'.transactions))| := by
  obtain ⟨w, hw, hs⟩ := closed_year h hab
  have gc := reachable_good hc
  obtain ⟨b1, b2, b3⟩ := classifyAll_gross gc _ hw (guard_internal gc hg)
  obtain ⟨_, _, _, _, a5⟩ := classifyAll_spec _ hw (guard_internal gc hg)
  have hni : incTotal (grossTotal w.gross) w.inc = netIncome e.chart (inWindow a b (posted e'.transactions)) := by
    rw [incTotal_eq, grossTotal_eq, a5]
    simp only [dictSum, incSum, List.map_nil, List.sum_nil, add_zero, zero_add]
    unfold netIncome
    congr 1
    apply List.map_congr_left
    intro t _
    simp only [effect, gc.income]
    rfl
  rw [hs, netCredit_append, untouched_net hu]
  simp only [closingTxs, netCredit_append]
  rw [netCredit_gross_other _ _ _ _ h1.symm _ (untouched_keys gc hu b2), netCredit_inc_self _ _ _ _ (untouched_keys gc hu b3),
    settle_inc _ _ _ _ h1, retained_inc _ _ _ _ h2, hni, ← hni, incTotal_eq]
  ring

/-- **C129 (what holds).** In a year without loss the income summary account ends at zero. -/
theorem C129_no_loss_partial (clk : Clock) (n : Nat) (e e' : Entity) (h : runEntityFor clk n e = .ok e')
    (hc : ReachableChart e.chart) (a b : Int) (hab : (a, b) ∈ yearsClosed clk n 0 (e.prepare (clockAt clk 0) n))
    (hg : OneIncomeSide e.chart (inWindow a b (posted e'.transactions)))
    (hu : Untouched e.chart.incSum (inWindow a b (posted e'.transactions)))
    (h1 : e.chart.grossProf ≠ e.chart.incSum) (h2 : e.chart.retEarn ≠ e.chart.incSum)
    (hpos : 0 ≤ netIncome e.chart (inWindow a b (posted e'.transactions))) :
    netCredit e.chart.incSum (inWindow a b e'.transactions) = 0 := by
  rw [C129_income_summary_account clk n e e' h hc a b hab hg hu h1 h2, abs_of_nonneg hpos, sub_self]

/-- **C129 (no empty bookings).** No year end books an amount of zero: an account without movement in the year gets no
closing transaction. -/
theorem C129_no_empty_closing (clk : Clock) (n : Nat) (e e' : Entity) (h : runEntityFor clk n e = .ok e') (a b : Int)
    (hab : (a, b) ∈ yearsClosed clk n 0 (e.prepare (clockAt clk 0) n)) :
    ∃ closings, inWindow a b e'.transactions = inWindow a b (posted e'.transactions) ++ closings ∧
      ∀ t ∈ closings, t.closingCr = true ∧ t.amount ≠ 0 ∧ t.date = b - 1000000 ∧ t.source = e.path := by
  obtain ⟨w, hw, hs⟩ := closed_year h hab
  refine ⟨_, hs, fun t ht => ⟨?_, closing_nonzero _ _ _ _ t ht, ?_⟩⟩
  · exact (closingTxs_closing _ _ _ _ t ht).1
  · exact (closingTxs_closing _ _ _ _ t ht).2

/-- The hypotheses are met, and the property fails, in the first year of the sample entities: gross profit 600 leaves the
account at -1200, a loss of 120 leaves the income summary at -240. -/
theorem C129_counterexample :
    Untouched chart0.grossProf (inWindow y0 y1 (posted (ledgerOf (runEntityFor clkM 14 ent0)))) ∧
    Untouched chart0.incSum (inWindow y0 y1 (posted (ledgerOf (runEntityFor clkM 14 entLoss)))) ∧
    chart0.grossProf ≠ chart0.incSum ∧ chart0.grossProf ≠ chart0.retEarn ∧ chart0.retEarn ≠ chart0.incSum ∧
    netCredit chart0.grossProf (inWindow y0 y1 (ledgerOf (runEntityFor clkM 14 ent0))) = -1200 ∧
    netCredit chart0.incSum (inWindow y0 y1 (ledgerOf (runEntityFor clkM 14 ent0))) = 0 ∧
    netCredit chart0.incSum (inWindow y0 y1 (ledgerOf (runEntityFor clkM 14 entLoss))) = -240 := by
  refine ⟨?_, ?_, by decide +kernel, by decide +kernel, by decide +kernel, by decide +kernel, by decide +kernel, by decide +kernel⟩
  · unfold Untouched; decide +kernel
  · unfold Untouched; decide +kernel

/-! ## C130 -/

theorem lastComp_none {n : Str} : ∀ {l : List Component}, (∀ x ∈ l, x.name ≠ n) → lastComp n l = none
  | [], _ => rfl
  | c :: cs, h => by
    simp only [lastComp, lastComp_none (l := cs) (fun x hx => h x (by simp [hx]))]
    rw [if_neg (h c (by simp))]

theorem lastComp_split {n : Str} {c : Component} {post : List Component} (hc : c.name = n) (hp : ∀ x ∈ post, x.name ≠ n) :
    ∀ pre : List Component, lastComp n (pre ++ c :: post) = some pre.length
  | [] => by simp only [List.nil_append, lastComp, lastComp_none hp]; rw [if_pos hc]; rfl
  | p :: pre => by simp only [List.cons_append, lastComp, lastComp_split hc hp pre, List.length_cons]

theorem lastEntity_none {n : Str} : ∀ {l : List Entity}, (∀ x ∈ l, x.name ≠ n) → lastEntity n l = none
  | [], _ => rfl
  | c :: cs, h => by
    simp only [lastEntity, lastEntity_none (l := cs) (fun x hx => h x (by simp [hx]))]
    rw [if_neg (h c (by simp))]

theorem lastEntity_split {n : Str} {c : Entity} {post : List Entity} (hc : c.name = n) (hp : ∀ x ∈ post, x.name ≠ n) :
    ∀ pre : List Entity, lastEntity n (pre ++ c :: post) = some pre.length
  | [] => by simp only [List.nil_append, lastEntity, lastEntity_none hp]; rw [if_pos hc]; rfl
  | p :: pre => by simp only [List.cons_append, lastEntity, lastEntity_split hc hp pre, List.length_cons]

theorem removeComp_split {n : Str} {c : Component} {pre post : List Component} (hc : c.name = n) (hp : ∀ x ∈ post, x.name ≠ n) :
    removeComp n (pre ++ c :: post) = pre ++ post := by
  unfold removeComp
  rw [lastComp_split hc hp]
  simp [List.eraseIdx_append_of_length_le]

/-- **C130 (components).** `remove_component(name)` on a component takes away the last child of that name, keeps all other
children in order and changes nothing else; without a child of that name it changes nothing. -/
theorem C130_component (c : Component) (n : Str) :
    (∀ pre d post, c.components = pre ++ d :: post → d.name = n → (∀ x ∈ post, x.name ≠ n) →
      c.removeComponent n = { c with components := pre ++ post }) ∧
    ((∀ x ∈ c.components, x.name ≠ n) → c.removeComponent n = c) := by
  constructor
  · intro pre d post h1 h2 h3
    simp only [Component.removeComponent, h1, removeComp_split h2 h3]
  · intro h
    simp only [Component.removeComponent, removeComp, lastComp_none h]; cases c; rfl

/-- **C130 (entities' components).** The same for `remove_component` on an entity. -/
theorem C130_entity_component (e : Entity) (n : Str) :
    (∀ pre d post, e.components = pre ++ d :: post → d.name = n → (∀ x ∈ post, x.name ≠ n) →
      e.removeComponent n = { e with components := pre ++ post }) ∧
    ((∀ x ∈ e.components, x.name ≠ n) → e.removeComponent n = e) := by
  constructor
  · intro pre d post h1 h2 h3
    simp only [Entity.removeComponent, h1, removeComp_split h2 h3]
  · intro h
    simp only [Entity.removeComponent, removeComp, lastComp_none h]

/-- **C130 (entities).** `remove_entity(name)` takes away the last entity of that name, keeps all other entities in order
and changes nothing else; without an entity of that name it changes nothing. -/
theorem C130_entity (m : Model) (n : Str) :
    (∀ pre d post, m.entities = pre ++ d :: post → d.name = n → (∀ x ∈ post, x.name ≠ n) →
      m.removeEntity n = { m with entities := pre ++ post }) ∧
    ((∀ x ∈ m.entities, x.name ≠ n) → m.removeEntity n = m) := by
  constructor
  · intro pre d post h1 h2 h3
    simp only [Model.removeEntity, h1, lastEntity_split h2 h3]
    simp [List.eraseIdx_append_of_length_le]
  · intro h
    simp only [Model.removeEntity, lastEntity_none h]

/-- Of two children of the same name the second one goes. -/
example : (Component.removeComponent "B".toList
    { (Component.new "A".toList none) with components := [Component.new "B".toList (some "1".toList),
      Component.new "B".toList (some "2".toList), Component.new "C".toList none] }).components.map (fun c => (c.name, c.description)) =
    [("B".toList, some "1".toList), ("C".toList, none)] := by decide +kernel

/-- **C130 (creating and removing).** Removing a component just created restores the component; the same for entities. -/
theorem C130_create_remove (c : Component) (n : Str) (d : Option Str) :
    (c.createComponent n d).removeComponent n = c := by
  have hn : ((Component.new n d).setParentPath c.path).name = n := rfl
  have := (C130_component (c.createComponent n d) n).1 c.components _ [] rfl hn (by simp)
  rw [this]; cases c; simp [Component.createComponent]

theorem C130_create_remove_entity (m : Model) (n : Str) (c : Chart) : (m.createEntity n c).removeEntity n = m := by
  have := (C130_entity (m.createEntity n c) n).1 m.entities (Entity.new n c) [] rfl rfl (by simp)
  rw [this]; simp [Model.createEntity]

end Auxi.Business.Props
