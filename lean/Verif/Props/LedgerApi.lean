import Verif.LedgerApi
import Verif.Props.ReportFaults

/-! # C140: the reports of a ledger without bounds -/
namespace Auxi.LedgerApi.Props
open Auxi Auxi.Ledger Auxi.Business Auxi.Reports Auxi.Reports.Spec Auxi.DateText Auxi.LedgerApi

/-- A time the machine has: between `datetime.min` and `datetime.max`. -/
def Timed (t : RTx) : Prop := ∃ us, t.date = .datetime us ∧ dtMin ≤ us ∧ us ≤ dtMax

/-- **C140 (recorded).** Creating a transaction puts it at the end of the ledger, with what was given, as an ordinary transaction; everything else stays. -/
theorem C140_recorded (g : GL) (name : Str) (description : Option Str) (date : When) (dt cr source : Option Str) (amount : ℚ) :
    ∃ t g', g.create name description date dt cr source amount = (t, g') ∧ g'.transactions = g.transactions ++ [t] ∧ g'.structure_ = g.structure_ ∧
      t.name = name ∧ t.description = description ∧ t.date = date ∧ t.dt = dt ∧ t.cr = cr ∧ t.source = source ∧ t.amount = amount ∧ t.closingDt = false ∧ t.closingCr = false :=
  ⟨_, _, rfl, rfl, rfl, rfl, rfl, rfl, rfl, rfl, rfl, rfl, rfl, rfl⟩

/-- **C140 (defaults).** A transaction created with a name alone has no description, accounts and source, the amount 0, and the first `date` of the calendar: a `date`, not a time. -/
theorem C140_defaults (g : GL) (name : Str) :
    (g.create name).1.name = name ∧ (g.create name).1.date = .date 0 ∧ (g.create name).1.date.isDate = true ∧ (g.create name).1.amount = 0 ∧
      (g.create name).1.description = none ∧ (g.create name).1.dt = none ∧ (g.create name).1.cr = none ∧ (g.create name).1.source = none :=
  ⟨rfl, rfl, rfl, rfl, rfl, rfl, rfl, rfl⟩

/-- **C140 (chart).** The report of a chart whose accounts all have numbers can be made, in every format and with every output path: the income accounts, then the balance sheet accounts. -/
theorem C140_structure (s : Structure) (out : Style → Table → Str) (f : Format) (path : Option Str) (h : numberedAll s.accounts = true) :
    ∃ ti tb : Table, structureReport s out f path = render out (.ok ([tx "Type", tx "Number", tx "Name", tx "Description"] :: ti ++ tb)) path f ∧
      ti.Perm (forestRows [] (s.accounts.filter (numberStarts 'I'))) ∧ tb.Perm (forestRows [] (s.accounts.filter (numberStarts 'B'))) := by
  have hn : ∀ l : List Account, numberedAll l = true ↔ ∀ a ∈ l, numbered a = true := by
    intro l
    induction l with
    | nil => simp [numberedAll]
    | cons a l ih => simp [numberedAll, ih]
  have h1 : ∀ a ∈ s.accounts, a.number ≠ none := by
    intro a ha hx
    have := (hn _).1 h a ha
    obtain ⟨n, d, num, ty, pp, p, cs⟩ := a
    cases num with
    | none => simp [numbered] at this
    | some k => cases hx
  have h2 : ∀ p : Account → Bool, numberedAll (s.accounts.filter p) = true := fun p => (hn _).2 (fun a ha => (hn _).1 h a (List.mem_filter.1 ha).1)
  obtain ⟨t, ht⟩ := (Reports.Props.C14_succeeds_iff s h1).2 ⟨h2 _, h2 _⟩
  obtain ⟨ti, tb, e, p1, p2⟩ := Reports.Props.C14_rows s t ht
  refine ⟨ti, tb, ?_, p1, p2⟩
  unfold structureReport
  rw [ht, e]

example : numberedAll Reports.Props.gls.accounts = true := by decide +kernel

theorem timed_selected {txs : List RTx} (h : ∀ t ∈ txs, Timed t) (hs : ∀ t ∈ txs, t.source.isSome) : txs.filter (selected [] (.datetime dtMin) (.datetime dtMax)) = txs := by
  rw [List.filter_eq_self]
  intro t ht
  obtain ⟨us, h1, h2, h3⟩ := h t ht
  obtain ⟨s, h4⟩ := Option.isSome_iff_exists.1 (hs t ht)
  simp [selected, notAfter, h1, h2, h3, h4]

theorem timed_upTo {txs : List RTx} (h : ∀ t ∈ txs, Timed t) : upTo (.datetime dtMax) txs = txs := by
  unfold upTo
  rw [List.filter_eq_self]
  intro t ht
  obtain ⟨us, h1, h2, h3⟩ := h t ht
  simp [notAfter, h1, h3]

/-- **C140 (transaction list).** Without arguments the list of a ledger whose transactions have times and sources shows every transaction once, in the order of time, and the total of them all. -/
theorem C140_transaction_list (g : GL) (out : Style → Table → Str) (f : Format) (path : Option Str) (h : ∀ t ∈ g.transactions, Timed t ∧ t.source.isSome) :
    ∃ l : List RTx, l.Perm g.transactions ∧ l.Pairwise (fun a b => a.date.key ≤ b.date.key) ∧
      g.transactionList out (format := f) (path := path) = render out (.ok (
        [tx "Date", tx "Source", tx "Tx Name", tx "Debit Account", tx "Credit Account", tx "Amount", tx "Description"] :: l.map (fun t => txRow t (t.source.getD [])) ++
        [[tx "", tx "", tx "Total", tx "", tx "", .money (g.transactions.map RTx.amount).sum, tx ""]])) path f := by
  have hk : ∀ t ∈ g.transactions, t.source.isSome ∧ t.date.isDate = (When.datetime dtMax).isDate := fun t ht => by
    obtain ⟨us, h1, -⟩ := (h t ht).1
    exact ⟨(h t ht).2, by rw [h1]; rfl⟩
  obtain ⟨t, ht⟩ := Reports.Props.C11_succeeds [] (.datetime dtMin) (.datetime dtMax) g.transactions rfl hk
  obtain ⟨l, l1, l2, -, l4⟩ := Reports.Props.C11_transaction_list _ _ _ _ _ ht
  rw [timed_selected (fun t ht => (h t ht).1) (fun t ht => (h t ht).2)] at l1
  refine ⟨l, l1, l2, ?_⟩
  unfold GL.transactionList transactionListFrom getDate
  dsimp only
  rw [ht, l4, (l1.map RTx.amount).sum_eq]

/-- **C140 (balance sheet).** Without arguments the balance sheet of a ledger whose transactions have times and accounts of the chart can be made; each account shows its debits and credits of all
time, and the difference of the two totals is the net of all transactions of revenue and expense accounts. -/
theorem C140_balance_sheet (g : GL) (out : Style → Table → Str) (f : Format) (path : Option Str) (h : ∀ t ∈ g.transactions, Timed t ∧ (typeOf? g.structure_ t.cr).isSome ∧ (typeOf? g.structure_ t.dt).isSome) :
    ∃ b : Sheet, g.balanceSheet out (format := f) (path := path) = render out (sheetTable b) path f ∧ sheetSums g.structure_ (.datetime dtMax) g.transactions = .ok b ∧
      dictSum b.assets - (dictSum b.liabilities + dictSum b.equity) = netCreditOf g.structure_ isIncome g.transactions := by
  have hf : ∀ t ∈ g.transactions, sheetFault g.structure_ (.datetime dtMax) t = none := fun t ht => by
    obtain ⟨⟨us, h1, h2, h3⟩, h4, h5⟩ := h t ht
    unfold sheetFault accountsFault
    rw [(Reports.Props.accountFault_iff _ _).2 h4, (Reports.Props.accountFault_iff _ _).2 h5, h1]
    simp [When.isDate]
  obtain ⟨b, hb⟩ := (Reports.Props.C10_refused g.structure_ (.datetime dtMax) g.transactions .exception).2.2 hf
  refine ⟨b, ?_, hb, ?_⟩
  · unfold GL.balanceSheet balanceSheetTo getDate Reports.balanceSheet
    dsimp only
    rw [hb]
    rfl
  · have := Reports.Props.C10_balance _ _ _ _ hb
    rw [timed_upTo (fun t ht => (h t ht).1)] at this
    exact this

/-- **C140 (income statement).** Without arguments the income statement of a ledger whose transactions have times, sources and accounts of the chart can be made, and covers all of them. -/
theorem C140_income_statement (g : GL) (out : Style → Table → Str) (f : Format) (path : Option Str)
    (h : ∀ t ∈ g.transactions, Timed t ∧ t.source.isSome ∧ (typeOf? g.structure_ t.cr).isSome ∧ (typeOf? g.structure_ t.dt).isSome) :
    ∃ b : Income, g.incomeStatement out (format := f) (path := path) = render out (.ok (incomeTable b)) path f ∧ incomeSums g.structure_ [] (.datetime dtMin) (.datetime dtMax) g.transactions = .ok b ∧
      g.transactions.filter (selected [] (.datetime dtMin) (.datetime dtMax)) = g.transactions := by
  have hf : ∀ t ∈ g.transactions, incomeFault g.structure_ [] (.datetime dtMin) (.datetime dtMax) t = none := fun t ht => by
    obtain ⟨⟨us, h1, h2, h3⟩, h6, h4, h5⟩ := h t ht
    obtain ⟨s, hs⟩ := Option.isSome_iff_exists.1 h6
    unfold incomeFault periodFault accountsFault
    rw [(Reports.Props.accountFault_iff _ _).2 h4, (Reports.Props.accountFault_iff _ _).2 h5, h1, hs]
    simp [When.isDate]
  have := (Reports.Props.C13_refused g.structure_ [] (.datetime dtMin) (.datetime dtMax) g.transactions .exception).2.2 hf
  obtain ⟨t, ht⟩ := this
  unfold Reports.incomeStatement at ht
  cases hb : incomeSums g.structure_ [] (.datetime dtMin) (.datetime dtMax) g.transactions with
  | error e => rw [hb] at ht; cases ht
  | ok b =>
    refine ⟨b, ?_, rfl, timed_selected (fun t ht => (h t ht).1) (fun t ht => (h t ht).2.1)⟩
    unfold GL.incomeStatement incomeStatementFrom getDate Reports.incomeStatement
    dsimp only
    rw [hb]
    rfl

/-- **C140 fails for transactions without a time.** If one transaction of a ledger has a `date`, as it has by default, its balance sheet without arguments cannot be made, in any format. -/
theorem C140_date_violated (g : GL) (out : Style → Table → Str) (f : Format) (path : Option Str) (t : RTx) (ht : t ∈ g.transactions) (hd : t.date.isDate = true) :
    ∃ e, g.balanceSheet out (format := f) (path := path) = .error e := by
  cases hs : sheetSums g.structure_ (.datetime dtMax) g.transactions with
  | error e =>
    refine ⟨e, ?_⟩
    unfold GL.balanceSheet balanceSheetTo getDate Reports.balanceSheet
    dsimp only
    rw [hs]
    rfl
  | ok b =>
    have := (Reports.Props.C10_refused g.structure_ (.datetime dtMax) g.transactions .exception).2.1 ⟨b, hs⟩ t ht
    unfold sheetFault at this
    rw [if_pos (by rw [hd]; decide)] at this
    cases this

/-- **C140 (both kinds).** A ledger with dates and times has no balance sheet at any end date and no transaction list for any period. -/
theorem C140_both_kinds_violated (g : GL) (out : Style → Table → Str) (f : Format) (path : Option Str) (comp : Str) (a b : When) (t t' : RTx) (ht : t ∈ g.transactions) (ht' : t' ∈ g.transactions)
    (hd : t.date.isDate ≠ t'.date.isDate) :
    (∃ e, g.balanceSheet out (.obj b) f path = .error e) ∧ g.transactionList out (.obj a) (.obj b) f comp path = .error .typeError := by
  constructor
  · cases hs : sheetSums g.structure_ b g.transactions with
    | error e =>
      refine ⟨e, ?_⟩
      unfold GL.balanceSheet balanceSheetTo getDate Reports.balanceSheet
      dsimp only
      rw [hs]
      rfl
    | ok s =>
      have key : ∀ x ∈ g.transactions, x.date.isDate = b.isDate := by
        intro x hx
        by_contra hne
        have := (Reports.Props.C10_refused g.structure_ b g.transactions .exception).2.1 ⟨s, hs⟩ x hx
        unfold sheetFault at this
        rw [if_pos hne] at this
        cases this
      exact absurd ((key t ht).trans (key t' ht').symm) hd
  · unfold GL.transactionList transactionListFrom getDate
    dsimp only
    rw [(Reports.Props.C11_refused comp a b g.transactions).1 ⟨t, ht, t', ht', hd⟩]
    rfl

/-- **C140 fails for transactions without a source.** If one transaction has no source, as it has by default, neither a transaction list nor an income statement can be made, for any period,
component and format. -/
theorem C140_source_violated (g : GL) (out : Style → Table → Str) (f : Format) (path : Option Str) (comp : Str) (a b : When) (t : RTx) (ht : t ∈ g.transactions) (hs : t.source = none) :
    (∃ e, g.transactionList out (.obj a) (.obj b) f comp path = .error e) ∧ ∃ e, g.incomeStatement out (.obj a) (.obj b) f comp path = .error e := by
  constructor
  · by_cases hk : ∃ x ∈ g.transactions, ∃ y ∈ g.transactions, x.date.isDate ≠ y.date.isDate
    · obtain ⟨x, hx, y, hy, hxy⟩ := hk
      exact ⟨_, (C140_both_kinds_violated g out f path comp a b x y hx hy hxy).2⟩
    · have hk' : ∀ x ∈ g.transactions, ∀ y ∈ g.transactions, x.date.isDate = y.date.isDate := fun x hx y hy => by by_contra h; exact hk ⟨x, hx, y, hy, h⟩
      obtain ⟨l, -, -, hl⟩ := (Reports.Props.C11_refused comp a b g.transactions).2 hk'
      cases hr : Reports.transactionList comp a b g.transactions with
      | error e => refine ⟨e, ?_⟩; unfold GL.transactionList transactionListFrom getDate; dsimp only; rw [hr]; rfl
      | ok r =>
        have := (hl .exception).2.1 ⟨r, hr⟩ t ht
        unfold listFault at this
        rw [hs] at this
        cases this
  · cases hr : Reports.incomeStatement g.structure_ comp a b g.transactions with
    | error e => refine ⟨e, ?_⟩; unfold GL.incomeStatement incomeStatementFrom getDate; dsimp only; rw [hr]; rfl
    | ok r =>
      have := (Reports.Props.C13_refused g.structure_ comp a b g.transactions .exception).2.1 ⟨r, hr⟩ t ht
      unfold incomeFault at this
      rw [hs] at this
      cases this

/-- A ledger with a sale at a time, and the same with one created without a date and a source. -/
def g0 : GL := ((GL.new Reports.Props.gls).create "Sale".toList (date := .datetime (63000000000 * 1000000)) (dt := some "Bank/Default".toList) (cr := some "Sales".toList) (source := some "/E".toList) (amount := 5)).2
/-- the same with another transaction -/
def g1 : GL := (g0.create "Cash".toList (dt := some "Bank/Default".toList) (cr := some "Sales".toList) (amount := 1)).2

example : (∀ t ∈ g0.transactions, Timed t ∧ t.source.isSome ∧ (typeOf? g0.structure_ t.cr).isSome ∧ (typeOf? g0.structure_ t.dt).isSome) := by
  intro t ht
  simp only [g0, GL.new, GL.create, List.nil_append, List.mem_singleton] at ht
  subst ht
  exact ⟨⟨_, rfl, by decide +kernel, by decide +kernel⟩, rfl, by decide +kernel, by decide +kernel⟩

example : (∃ t ∈ g1.transactions, ∃ t' ∈ g1.transactions, t.date.isDate ≠ t'.date.isDate ∧ t'.source = none) := by decide +kernel

end Auxi.LedgerApi.Props
