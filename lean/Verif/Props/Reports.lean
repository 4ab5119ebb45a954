import Verif.Proofs.Reports2
import Verif.Props.YearEnd
import Verif.Proofs.BusinessOps

/-!
# Properties C10–C15, C96: reports
-/
namespace Auxi.Reports.Props
open Auxi.Reports Auxi.Reports.Spec Auxi.Ledger Auxi.Business

/-! ## Samples -/

/-- A small ledger on a fresh chart of accounts: capital paid in, a sale on the bank, rent paid. -/
def gls : Structure := Structure.new "GL".toList

/-- A transaction on some day. -/
def mk (day : Int) (src dt cr : String) (amount : ℚ) : RTx :=
  { name := "T".toList, description := none, date := .date day, dt := some dt.toList, cr := some cr.toList,
    source := some src.toList, amount }

/-- sample transactions -/
def txs0 : List RTx :=
  [mk 5 "/E/A1" "Bank/Default" "Shareholders Loan" 1000, mk 9 "/E/A10" "Bank/Default" "Sales" 100,
   mk 7 "/E/A1" "Expense" "Bank/Default" 30, mk 7 "/E/A1" "Sales" "Bank/Default" 10,
   mk 3 "/E/B" "Bank/Default" "Retained Income/Retained Earnings" 1]

/-! ## C10: balance sheet -/

/-- **C10.** Total assets minus total liabilities and equity equals credits less debits of revenue and expense accounts
up to the end date. -/
theorem C10_balance (s : Structure) (stop : When) (txs : List RTx) (b : Sheet) (h : sheetSums s stop txs = .ok b) :
    dictSum b.assets - (dictSum b.liabilities + dictSum b.equity) = netCreditOf s isIncome (upTo stop txs) := by
  obtain ⟨i1, i2, i3, i4⟩ := sheet_inv txs _ b h
  have := netCreditOf_split i4
  rw [i1.sum, i2.sum, i3.sum]
  simp only [dictSum, List.map_nil, List.sum_nil]
  linarith

/-- **C10.** The sheet balances exactly when the income statement accounts net to zero. -/
theorem C10_balances_iff (s : Structure) (stop : When) (txs : List RTx) (b : Sheet) (h : sheetSums s stop txs = .ok b) :
    dictSum b.assets = dictSum b.liabilities + dictSum b.equity ↔ netCreditOf s isIncome (upTo stop txs) = 0 := by
  rw [← C10_balance s stop txs b h, sub_eq_zero]

/-- **C10 (entries).** Each asset account used up to the end date is listed once with debits minus credits, each
liability and equity account once with credits minus debits, and no other account is listed. -/
theorem C10_entries (s : Structure) (stop : When) (txs : List RTx) (b : Sheet) (h : sheetSums s stop txs = .ok b) (p : Str) :
    (lookup p b.assets = open Classical in if typeOf s p = some .asset ∧ Touched p (upTo stop txs)
      then some (- netCredit p (upTo stop txs)) else none) ∧
    (lookup p b.liabilities = open Classical in if typeOf s p = some .liability ∧ Touched p (upTo stop txs)
      then some (netCredit p (upTo stop txs)) else none) ∧
    (lookup p b.equity = open Classical in if typeOf s p = some .equity ∧ Touched p (upTo stop txs)
      then some (netCredit p (upTo stop txs)) else none) ∧
    (b.assets.map (·.1)).Nodup ∧ (b.liabilities.map (·.1)).Nodup ∧ (b.equity.map (·.1)).Nodup := by
  obtain ⟨i1, i2, i3, _⟩ := sheet_inv txs _ b h
  have key : ∀ {ty : AccountType} {sgn : ℚ} {d : Dict Str}, DictInv s ty sgn [] d (upTo stop txs) →
      lookup p d = open Classical in if typeOf s p = some ty ∧ Touched p (upTo stop txs)
        then some (sgn * netCredit p (upTo stop txs)) else none := by
    intro ty sgn d hd
    obtain ⟨g1, g2⟩ := hd.get p
    by_cases c1 : typeOf s p = some ty
    · by_cases c2 : Touched p (upTo stop txs)
      · rw [if_pos ⟨c1, c2⟩, (g2 c1).1 c2]; simp [lookup_nil]
      · rw [if_neg (fun h => c2 h.2), (g2 c1).2 c2]; rfl
    · rw [if_neg (fun h => c1 h.1), g1 c1]; rfl
  refine ⟨?_, ?_, ?_, i1.nodup (by simp), i2.nodup (by simp), i3.nodup (by simp)⟩
  · rw [key i1]; simp
  · rw [key i2]; simp
  · rw [key i3]; simp

/-- **C10 (table).** The report's table consists of a header, the assets on the left and liabilities and equity with
their totals on the right, and the line of grand totals; producing it from the sums never fails. -/
theorem C10_table (s : Structure) (stop : When) (txs : List RTx) (b : Sheet) (h : sheetSums s stop txs = .ok b) :
    balanceSheet s stop txs = .ok (
      [tx "Assets", tx " ", tx "Liabilities and Equity", tx "", tx "  "] :: sideBySide (leftPart b) (rightPart b) ++
      [[tx "-----", tx "--------", tx "----------------------", tx "", tx "--------"],
       [tx "Total", .money (dictSum b.assets), tx "Total", tx "", .money (dictSum b.liabilities + dictSum b.equity)]]) := by
  simp only [balanceSheet, h, bind, Except.bind]
  exact sheetTable_eq b

/-- **C10 (success).** The sheet can be made if dates and end date are of one kind and the accounts exist. -/
theorem C10_succeeds (s : Structure) (stop : When) (txs : List RTx) (hk : ∀ t ∈ txs, t.date.isDate = stop.isDate)
    (ha : ∀ t ∈ upTo stop txs, ∃ c d, t.cr = some c ∧ t.dt = some d ∧ (typeOf s c).isSome ∧ (typeOf s d).isSome) :
    ∃ b, sheetSums s stop txs = .ok b := sheetLoop_ok txs _ hk ha

example : (sheetSums gls (.date 8) txs0).map (fun b => (dictSum b.assets, dictSum b.liabilities, dictSum b.equity)) =
    .ok (961, 1000, 1) := by decide +kernel
example : netCreditOf gls isIncome (upTo (.date 8) txs0) = -40 := by decide +kernel
example : (balanceSheet gls (.date 8) txs0).map List.length = .ok 12 := by decide +kernel

/-! ## C11, C12: transaction list -/

/-- **C11.** The table has a header, one row per selected transaction of the ledger, and a total row: the listed
transactions are the selected ones (as often as they occur), in date order, those of the same date in ledger order, and
the total is their sum. -/
theorem C11_transaction_list (comp : Str) (start stop : When) (txs : List RTx) (t : Table)
    (h : transactionList comp start stop txs = .ok t) :
    ∃ l : List RTx, l.Perm (txs.filter (selected comp start stop)) ∧
      l.Pairwise (fun a b => a.date.key ≤ b.date.key) ∧
      (∀ k, l.filter (fun t => t.date.key = k) = (txs.filter (selected comp start stop)).filter (fun t => t.date.key = k)) ∧
      t = [tx "Date", tx "Source", tx "Tx Name", tx "Debit Account", tx "Credit Account", tx "Amount", tx "Description"] ::
        l.map (fun t => txRow t (t.source.getD [])) ++
        [[tx "", tx "", tx "Total", tx "", tx "", .money (l.map RTx.amount).sum, tx ""]] := by
  unfold transactionList sortByDate at h
  split at h
  · cases h
  · rename_i l0 hl0
    split at hl0
    · cases hl0
    · simp only [Except.ok.injEq] at hl0
      split at h
      · cases h
      · rename_i rows tot hr
        obtain ⟨r1, r2⟩ := txRows_ok _ _ _ hr
        simp only [Except.ok.injEq] at h
        refine ⟨l0.filter (selected comp start stop), ?_, ?_, ?_, ?_⟩
        · rw [← hl0]; exact (List.perm_insertionSort _ _).filter _
        · rw [← hl0]; exact (List.pairwise_insertionSort _ _).filter _
        · intro k
          have := filter_sort txs k
          rw [← hl0, List.filter_filter, List.filter_filter]
          have e : ∀ l : List RTx, l.filter (fun a => (decide (a.date.key = k)) && selected comp start stop a) =
              (l.filter (fun a => a.date.key = k)).filter (selected comp start stop) := by
            intro l; rw [List.filter_filter]; congr 1; funext a; rw [Bool.and_comm]
          rw [e, e, this]
        · rw [← h, r1, r2]

/-- **C11 (success).** The list can be made if the dates and bounds are of one kind and each transaction has a source. -/
theorem C11_succeeds (comp : Str) (start stop : When) (txs : List RTx) (hb : start.isDate = stop.isDate)
    (h : ∀ t ∈ txs, t.source.isSome ∧ t.date.isDate = stop.isDate) : ∃ t, transactionList comp start stop txs = .ok t := by
  unfold transactionList sortByDate
  have hm : ¬ (txs.any (fun t => t.date.isDate) && txs.any (fun t => !t.date.isDate)) = true := by
    intro hh
    simp only [Bool.and_eq_true, List.any_eq_true, Bool.not_eq_true'] at hh
    obtain ⟨⟨a, ha, ha'⟩, ⟨b, hb', hb''⟩⟩ := hh
    have := (h a ha).2; have := (h b hb').2
    simp_all
  rw [if_neg hm]
  simp only
  obtain ⟨⟨r, tt⟩, hr⟩ := txRows_total (comp := comp) (start := start) (stop := stop)
    (txs.insertionSort (fun a b => a.date.key ≤ b.date.key)) (by
      intro t ht
      rw [List.mem_insertionSort] at ht
      exact ⟨(h t ht).1, by rw [hb]; exact (h t ht).2, (h t ht).2⟩)
  rw [hr]
  exact ⟨_, rfl⟩

example : (transactionList "/E/A1".toList (.date 4) (.date 9) txs0).map (fun t => t.map (fun r => r[5]?)) =
    .ok [some (tx "Amount"), some (.money 1000), some (.money 30), some (.money 10), some (.money 100), some (.money 1140)] := by
  decide +kernel

/-- **C12 is false of the code.** A list restricted to the component `/E/A1` also shows a transaction of `/E/A10`. -/
theorem C12_other_component_listed : ¬ ∀ (comp : Str) (start stop : When) (t : RTx) (s : Str), t.source = some s →
    selected comp start stop t = true → Ledger.Spec.segments comp <+: Ledger.Spec.segments s := by
  intro h
  have := h "/E/A1".toList (.date 0) (.date 20) (mk 9 "/E/A10" "Bank/Default" "Sales" 100) "/E/A10".toList rfl (by decide)
  revert this; decide

theorem segments_ne (s : Str) : Ledger.Spec.segments s ≠ [] := Ledger.segments_ne_nil s

/-- Segment wise prefix in terms of strings. -/
theorem segments_prefix (p s : Str) :
    Ledger.Spec.segments p <+: Ledger.Spec.segments s ↔ s = p ∨ (p ++ ['/']) <+: s := by
  induction p generalizing s with
  | nil =>
    simp only [Ledger.Spec.segments, List.nil_append]
    cases s with
    | nil => simp [Ledger.Spec.segments]
    | cons c cs =>
      simp only [Ledger.Spec.segments, List.cons_prefix_cons, List.nil_prefix, and_true]
      split
      · rename_i hc; simp [hc, eq_comm]
      · rename_i hc
        have h' : ¬ '/' = c := fun e => hc e.symm
        split <;> simp [h']
  | cons a p ih =>
    cases s with
    | nil =>
      simp only [Ledger.Spec.segments]
      split
      · have := segments_ne p
        cases hp : Ledger.Spec.segments p with
        | nil => exact absurd hp this
        | cons x y => simp
      · split <;> simp
    | cons c cs =>
      have hcs := segments_ne cs
      have hpp := segments_ne p
      have IH := ih cs
      cases hp : Ledger.Spec.segments p with
      | nil => exact absurd hp hpp
      | cons x y =>
        cases hs : Ledger.Spec.segments cs with
        | nil => exact absurd hs hcs
        | cons u v =>
          rw [hp, hs] at IH
          simp only [Ledger.Spec.segments, hp, hs]
          by_cases h1 : a = '/' <;> by_cases h2 : c = '/'
          · subst h1 h2
            simp only [if_true, List.cons_prefix_cons, true_and, List.cons_append, List.cons.injEq] at IH ⊢
            exact IH
          · subst h1
            have h2' : ¬ '/' = c := fun e => h2 e.symm
            simp only [if_true, if_neg h2, List.cons_prefix_cons, List.cons_append, List.cons.injEq, h2', h2, false_and, or_self, iff_false]
            simp
          · subst h2
            have h1' : ¬ '/' = a := fun e => h1 e.symm
            simp only [if_true, if_neg h1, List.cons_prefix_cons, List.cons_append, List.cons.injEq, h1', h1, false_and, or_self, iff_false]
            simp
          · simp only [if_neg h1, if_neg h2, List.cons_prefix_cons, List.cons_append, List.cons.injEq] at IH ⊢
            constructor
            · rintro ⟨⟨rfl, rfl⟩, h⟩
              rcases IH.1 ⟨rfl, h⟩ with r | r
              · exact Or.inl ⟨rfl, r⟩
              · exact Or.inr ⟨rfl, r⟩
            · rintro (⟨rfl, r⟩ | ⟨rfl, r⟩)
              · obtain ⟨e1, e2⟩ := IH.2 (Or.inl r); exact ⟨⟨rfl, e1⟩, e2⟩
              · obtain ⟨e1, e2⟩ := IH.2 (Or.inr r); exact ⟨⟨rfl, e1⟩, e2⟩

/-- **C12 (what holds).** If no source continues the component's path inside a name (that is, whenever the source starts
with the path it equals it or goes on with `/`), the listed transactions are exactly those of the period whose source lies
at or below the component, segment by segment. -/
theorem C12_segmentwise_partial (comp : Str) (start stop : When) (t : RTx) (s : Str) (hs : t.source = some s)
    (guard : ∀ c r, s = comp ++ c :: r → c = '/') :
    selected comp start stop t = true ↔
      (Ledger.Spec.segments comp <+: Ledger.Spec.segments s ∧ notAfter start t.date = true ∧ notAfter t.date stop = true) := by
  have hp : comp.isPrefixOf s = true ↔ Ledger.Spec.segments comp <+: Ledger.Spec.segments s := by
    rw [segments_prefix, List.isPrefixOf_iff_prefix]
    constructor
    · rintro ⟨r, rfl⟩
      cases r with
      | nil => left; simp
      | cons c r =>
        right
        have := guard c r rfl
        subst this
        exact ⟨r, by simp⟩
    · rintro (rfl | ⟨r, rfl⟩)
      · exact List.prefix_refl _
      · exact ⟨'/' :: r, by simp⟩
  simp only [selected, hs, Bool.and_eq_true, hp, and_assoc]

example : (∀ c r, "/E/A1/B".toList = "/E/A1".toList ++ c :: r → c = '/') ∧
    selected "/E/A1".toList (.date 0) (.date 9) (mk 5 "/E/A1/B" "Bank/Default" "Sales" 1) = true := by
  constructor
  · intro c r h
    simp at h
    exact h.1.symm
  · decide

/-! ## C13: income statement -/

/-- **C13 is false of the code.** Refunding a sale before anything is sold shows up as revenue. -/
theorem C13_first_debit_counterexample :
    (incomeSums gls [] (.date 0) (.date 9) [mk 1 "/E" "Sales" "Bank/Default" 10]).map (fun b => lookup "Sales".toList b.income) =
      .ok (some 10) ∧
    netCredit "Sales".toList [mk 1 "/E" "Sales" "Bank/Default" 10] = -10 := by
  constructor <;> decide +kernel

/-- **C13 (exact content).** For the transactions that count (selected, not closing): each revenue account used shows
credits minus debits plus twice the amount of its first entry if that was a debit; each expense account used shows debits
minus credits plus twice the amount of its first entry if that was a credit; unused accounts are not shown. -/
theorem C13_exact_partial (s : Structure) (comp : Str) (start stop : When) (txs : List RTx) (b : Income)
    (hs : typeOf s [] = none) (h : incomeSums s comp start stop txs = .ok b) (p : Str) :
    let l := txs.filter (fun t => selected comp start stop t && ordinary t)
    (typeOf s p = some .revenue → lookup p b.income =
      if l.any (fun t => t.cr = some p ∨ t.dt = some p) then some (netCredit p l + 2 * firstWrong true p l) else none) ∧
    (typeOf s p = some .expense → lookup p b.expenses =
      if l.any (fun t => t.cr = some p ∨ t.dt = some p) then some (- netCredit p l + 2 * firstWrong false p l) else none) := by
  obtain ⟨h1, h2, h3⟩ := income_fold hs txs _ b h
  have hres : Resolved s (counted comp start stop txs) := by
    intro t ht
    simp only [counted, List.mem_filter, Bool.and_eq_true] at ht
    exact h3 t (by simp [ht.1, ht.2.1])
  intro l
  constructor
  · intro hp
    rw [h1, incFold_exact (side := true) (by simp) p hp _ _ hres]
    simp only [lookup_nil, one_mul]; rfl
  · intro hp
    rw [h2, incFold_exact (side := false) (by simp) p hp _ _ hres]
    simp only [lookup_nil, neg_mul, one_mul]; rfl

/-- **C13 (what holds).** If every revenue account is first credited and every expense account first debited, each is
shown with its net, and net income (total revenue minus total expenses) is credits less debits of all income accounts. -/
theorem C13_net_income_partial (s : Structure) (comp : Str) (start stop : When) (txs : List RTx) (b : Income)
    (hs : typeOf s [] = none) (h : incomeSums s comp start stop txs = .ok b)
    (hrev : ∀ p, typeOf s p = some .revenue → firstOnSide true p (txs.filter (fun t => selected comp start stop t && ordinary t)))
    (hexp : ∀ p, typeOf s p = some .expense → firstOnSide false p (txs.filter (fun t => selected comp start stop t && ordinary t))) :
    let l := txs.filter (fun t => selected comp start stop t && ordinary t)
    dictSum b.income - dictSum b.expenses = netCreditOf s isIncome l ∧
    (∀ p, typeOf s p = some .revenue → Touched p l → lookup p b.income = some (netCredit p l)) ∧
    (∀ p, typeOf s p = some .expense → Touched p l → lookup p b.expenses = some (- netCredit p l)) ∧
    (∀ p, lookup p b.income ≠ none → typeOf s p = some .revenue ∧ Touched p l) ∧
    (∀ p, lookup p b.expenses ≠ none → typeOf s p = some .expense ∧ Touched p l) ∧
    (b.income.map (·.1)).Nodup ∧ (b.expenses.map (·.1)).Nodup := by
  obtain ⟨h1, h2, h3⟩ := income_fold hs txs _ b h
  have hres : Resolved s (counted comp start stop txs) := by
    intro t ht
    simp only [counted, List.mem_filter, Bool.and_eq_true] at ht
    exact h3 t (by simp [ht.1, ht.2.1])
  have i1 := incFold_inv (s := s) (ty := .revenue) (sgn := 1) (side := true) (by simp) _ [] hres (fun p hp => Or.inr (hrev p hp))
  have i2 := incFold_inv (s := s) (ty := .expense) (sgn := -1) (side := false) (by simp) _ [] hres (fun p hp => Or.inr (hexp p hp))
  simp only at h1 h2
  rw [← h1] at i1
  rw [← h2] at i2
  intro l
  have hl : counted comp start stop txs = l := rfl
  rw [hl] at i1 i2 hres
  refine ⟨?_, ?_, ?_, ?_, ?_, i1.nodup (by simp), i2.nodup (by simp)⟩
  · rw [i1.sum, i2.sum]
    simp only [dictSum, List.map_nil, List.sum_nil]
    have : ∀ l : List RTx, netCreditOf s isIncome l =
        netCreditOf s (fun x => x = .revenue) l + netCreditOf s (fun x => x = .expense) l := by
      intro l
      induction l with
      | nil => simp [netCreditOf]
      | cons t ts ih =>
        rw [netCreditOf_cons, netCreditOf_cons, netCreditOf_cons, ih]
        have e : ∀ o : Option AccountType, (if (o.any isIncome) = true then t.amount else 0) =
            (if o.any (fun x => x = .revenue) = true then t.amount else 0) +
            (if o.any (fun x => x = .expense) = true then t.amount else 0) := by
          intro o; cases o with
          | none => simp
          | some x => cases x <;> simp [isIncome]
        rw [e, e]; ring
    rw [this]; ring
  · intro p hp ht
    rw [((i1.get p).2 hp).1 ht]; simp [lookup_nil]
  · intro p hp ht
    rw [((i2.get p).2 hp).1 ht]; simp [lookup_nil]
  · intro p hp
    by_cases c1 : typeOf s p = some .revenue
    · refine ⟨c1, ?_⟩
      by_contra c2
      rw [((i1.get p).2 c1).2 c2] at hp
      exact hp rfl
    · rw [(i1.get p).1 c1] at hp; exact absurd rfl hp
  · intro p hp
    by_cases c1 : typeOf s p = some .expense
    · refine ⟨c1, ?_⟩
      by_contra c2
      rw [((i2.get p).2 c1).2 c2] at hp
      exact hp rfl
    · rw [(i2.get p).1 c1] at hp; exact absurd rfl hp

/-- A ledger that meets the hypotheses: sale, then refund, then an expense. -/
def txs1 : List RTx := [mk 1 "/E" "Bank/Default" "Sales" 100, mk 2 "/E" "Sales" "Bank/Default" 10, mk 3 "/E" "Expense" "Bank/Default" 30]

example : typeOf gls [] = none ∧ txs1.filter (fun t => selected [] (.date 0) (.date 9) t && ordinary t) = txs1 ∧
    firstOnSide true "Sales".toList txs1 ∧ firstOnSide false "Expense".toList txs1 ∧
    (incomeSums gls [] (.date 0) (.date 9) txs1).map (fun b => (b.income, b.expenses)) =
      .ok ([("Sales".toList, 90)], [("Expense".toList, 30)]) := by
  refine ⟨by decide +kernel, by decide +kernel, ?_, ?_, by decide +kernel⟩
  · simp [firstOnSide, txs1, mk]
  · simp [firstOnSide, txs1, mk]

theorem dictSum_filter (d : Dict Str) (P : Str → Bool) :
    dictSum (d.filter (fun e => P e.1)) + dictSum (d.filter (fun e => !P e.1)) = dictSum d := by
  induction d with
  | nil => simp [dictSum]
  | cons e d ih =>
    simp only [dictSum, List.filter_cons, List.map_cons, List.sum_cons] at ih ⊢
    cases P e.1 <;> simp <;> linarith

theorem table_isCos (b : Income) :
    let cos := b.expenses.filter (fun e => isCos e.1)
    let other := b.expenses.filter (fun e => !isCos e.1)
    let gross := dictSum b.income - dictSum cos
    let total := dictSum other
    let net := dictSum b.income - dictSum b.expenses
    gross - total = net ∧
    incomeTable b =
      [[tx "", tx "Debit", tx "Credit"], [tx "Revenues", tx "", tx ""], [tx "--------", tx "", tx ""]] ++
      b.income.map (fun e => [.text e.1, tx "", .money e.2]) ++
      [[tx "", tx "", tx ""], [tx "Cost of Sales", tx "", tx ""], [tx "-------------", tx "", tx ""]] ++
      cos.map (fun e => [.text e.1, .money e.2, tx ""]) ++
      [[tx "", tx "", tx "--------"], [tx "Gross Revenues (including interest income)", tx "", .money gross],
       [tx "", tx "", tx "--------"], [tx "Expenses", tx "", tx ""], [tx "--------", tx "", tx ""]] ++
      other.map (fun e => [.text e.1, .money e.2, tx ""]) ++
      [[tx "", tx "--------", tx ""], [tx "Total Expenses", .money total, tx ""],
       [tx "", tx "--------", tx "--------"],
       [tx "Net Income", tx "", if 0 ≤ net then .money net else .paren (-net)]] := by
  intro cos other gross total net
  have h1 := dictSum_filter b.expenses isCos
  have h2 : dictSum b.expenses - dictSum cos = total := by
    show dictSum b.expenses - dictSum (b.expenses.filter (fun e => isCos e.1)) = _
    linarith
  refine ⟨by show dictSum b.income - dictSum cos - total = _; rw [← h2]; ring, ?_⟩
  unfold incomeTable
  simp only
  rw [show dictSum b.expenses - dictSum (b.expenses.filter (fun e => isCos e.1)) = total from h2]
  by_cases h : 0 ≤ net
  · rw [if_neg (not_lt.2 h), if_pos h, abs_of_nonneg h]
  · rw [if_pos (not_le.1 h), if_neg h, abs_of_neg (not_le.1 h)]

/-- **C13 (table).** The displayed lines are consistent: each account of the two groups has one line, gross revenue less
total expenses is the net income shown (in parentheses when negative). -/
theorem C13_table (b : Income) :
    let cos := b.expenses.filter (fun e => "Cost of Sales".toList.isPrefixOf e.1)
    let other := b.expenses.filter (fun e => !"Cost of Sales".toList.isPrefixOf e.1)
    let gross := dictSum b.income - dictSum cos
    let total := dictSum other
    let net := dictSum b.income - dictSum b.expenses
    gross - total = net ∧
    incomeTable b =
      [[tx "", tx "Debit", tx "Credit"], [tx "Revenues", tx "", tx ""], [tx "--------", tx "", tx ""]] ++
      b.income.map (fun e => [.text e.1, tx "", .money e.2]) ++
      [[tx "", tx "", tx ""], [tx "Cost of Sales", tx "", tx ""], [tx "-------------", tx "", tx ""]] ++
      cos.map (fun e => [.text e.1, .money e.2, tx ""]) ++
      [[tx "", tx "", tx "--------"], [tx "Gross Revenues (including interest income)", tx "", .money gross],
       [tx "", tx "", tx "--------"], [tx "Expenses", tx "", tx ""], [tx "--------", tx "", tx ""]] ++
      other.map (fun e => [.text e.1, .money e.2, tx ""]) ++
      [[tx "", tx "--------", tx ""], [tx "Total Expenses", .money total, tx ""],
       [tx "", tx "--------", tx "--------"],
       [tx "Net Income", tx "", if 0 ≤ net then .money net else .paren (-net)]] := table_isCos b

/-! ## C14: chart of accounts -/

/-- **C14.** The report's rows (below the header) are the rows of the income accounts (top level number `I...`) followed
by those of the balance sheet accounts (`B...`), one row for each account of those trees. -/
theorem C14_rows (s : Structure) (t : Table) (h : structureReport s = .ok t) :
    ∃ ti tb : Table, t = [tx "Type", tx "Number", tx "Name", tx "Description"] :: ti ++ tb ∧
      ti.Perm (forestRows [] (s.accounts.filter (numberStarts 'I'))) ∧
      tb.Perm (forestRows [] (s.accounts.filter (numberStarts 'B'))) := by
  rw [← startsWith_eq, ← startsWith_eq]
  unfold structureReport at h
  split at h
  · cases h
  · split at h
    · cases h
    · rename_i i hi
      split at h
      · cases h
      · rename_i b hb
        simp only [Except.ok.injEq] at h
        refine ⟨_, _, h.symm, ?_, ?_⟩
        · exact ((sortByNumber_perm i).flatMap_right _).trans (glChildren_perm _ _ _ hi)
        · exact ((sortByNumber_perm b).flatMap_right _).trans (glChildren_perm _ _ _ hb)

/-- **C14 (order).** The children of an account come directly after it, each with its own subtree, in account number
order: the rows of an account are its own row followed by the blocks of rows of its children sorted by number. -/
theorem C14_order (pre : Str) (a : Account) (t : Table) (h : glRows pre a = .ok t) :
    ∃ (k : Str) (blocks blocks0 : List (Str × Table)), a.number = some k ∧
      t = [.text (kindText a.accountType), .text (pre ++ k), .text a.name, optCell a.description] :: blocks.flatMap (·.2) ∧
      blocks.Perm blocks0 ∧ blocks.Pairwise (fun x y => strLe x.1 y.1 = true) ∧
      List.Forall₂ (fun c e => c.number = some e.1 ∧ glRows (k ++ ['/']) c = .ok e.2) a.accounts blocks0 := by
  obtain ⟨n, d, num, ty, pp, p, cs⟩ := a
  cases num with
  | none => simp [glRows] at h
  | some k =>
    simp only [glRows] at h
    split at h
    · cases h
    · rename_i l hl
      simp only [Except.ok.injEq] at h
      exact ⟨k, sortByNumber l, l, rfl, by rw [← typeName_eq]; exact h.symm, sortByNumber_perm l, sortByNumber_sorted l, glChildren_keys _ _ _ hl⟩

/-- **C14 (top level order).** The two groups are in account number order too. -/
theorem C14_top_order (s : Structure) (t : Table) (h : structureReport s = .ok t) :
    ∃ bi bb : List (Str × Table), t = [tx "Type", tx "Number", tx "Name", tx "Description"] :: bi.flatMap (·.2) ++ bb.flatMap (·.2) ∧
      bi.Pairwise (fun x y => strLe x.1 y.1 = true) ∧ bb.Pairwise (fun x y => strLe x.1 y.1 = true) ∧
      (∀ e ∈ bi, ∃ a ∈ s.accounts, numberStarts 'I' a = true ∧ a.number = some e.1 ∧ glRows [] a = .ok e.2) ∧
      (∀ e ∈ bb, ∃ a ∈ s.accounts, numberStarts 'B' a = true ∧ a.number = some e.1 ∧ glRows [] a = .ok e.2) := by
  rw [← startsWith_eq, ← startsWith_eq]
  have mem : ∀ {ch : Char} {l : List (Str × Table)}, glChildren [] (s.accounts.filter (startsWith ch)) = .ok l →
      ∀ e ∈ sortByNumber l, ∃ a ∈ s.accounts, startsWith ch a = true ∧ a.number = some e.1 ∧ glRows [] a = .ok e.2 := by
    intro ch l hl e he
    rw [(sortByNumber_perm l).mem_iff] at he
    obtain ⟨a, ha, hr⟩ := forall₂_mem (glChildren_keys _ _ _ hl) he
    rw [List.mem_filter] at ha
    exact ⟨a, ha.1, ha.2, hr⟩
  unfold structureReport at h
  split at h
  · cases h
  · split at h
    · cases h
    · rename_i i hi
      split at h
      · cases h
      · rename_i b hb
        simp only [Except.ok.injEq] at h
        exact ⟨sortByNumber i, sortByNumber b, h.symm, sortByNumber_sorted i, sortByNumber_sorted b, mem hi, mem hb⟩

/-- **C14 (success).** The report fails exactly when some account in it has no number (`create_account`'s default). -/
theorem C14_succeeds_iff (s : Structure) (hn : ∀ a ∈ s.accounts, a.number ≠ none) :
    (∃ t, structureReport s = .ok t) ↔
      numberedAll (s.accounts.filter (numberStarts 'I')) = true ∧ numberedAll (s.accounts.filter (numberStarts 'B')) = true := by
  rw [← startsWith_eq, ← startsWith_eq]
  rw [← glChildren_ok [], ← glChildren_ok []]
  unfold structureReport
  rw [if_neg (by simp only [List.any_eq_true, decide_eq_true_eq]; rintro ⟨a, ha, h⟩; exact hn a ha h)]
  cases glChildren [] (s.accounts.filter (startsWith 'I')) <;> simp
  cases glChildren [] (s.accounts.filter (startsWith 'B')) <;> simp

example : (structureReport gls).map List.length = .ok 28 := by decide +kernel

/-- The default of `create_account` (no number) makes the report fail. -/
theorem C14_unnumbered_counterexample :
    structureReport { gls with accounts := runOps [.create [1] "A".toList none none] } = .error .typeError := by
  decide +kernel

/-! ## C15: rendering -/

/-- **C15.** Text is returned for the string format only; something is printed exactly for the printout format and for
the file formats without an output path; a file is written exactly for latex, txt and csv with an output path, once, under
the path with the matching extension and with the rendering of the report's table. -/
theorem C15_render (out : Style → Table → Str) (t : Table) (path : Option Str) (f : Format) :
    ∃ eff ret, render out (.ok t) path f = .ok (eff, ret) ∧
      (ret = if f = .string then some (out .simple t) else none) ∧
      (∀ p x, Effect.write p x ∈ eff ↔ ∃ q, path = some q ∧
        (f = .latex ∧ p = q ++ ".tex".toList ∧ x = out .latex t ∨ f = .txt ∧ p = q ++ ".txt".toList ∧ x = out .simple t ∨
         f = .csv ∧ p = q ++ ".csv".toList ∧ x = out .csv t)) ∧
      (∀ x, Effect.print x ∈ eff ↔ f = .printout ∧ x = out .simple t ∨
        path = none ∧ (f = .latex ∧ x = out .latex t ∨ f = .txt ∧ x = out .simple t ∨ f = .csv ∧ x = out .csv t)) ∧
      eff.length ≤ 1 := by
  cases f <;> cases path <;> refine ⟨_, _, rfl, ?_⟩ <;> simp [renderTo]

/-- **C15 (failure).** A report whose table cannot be generated has no effect in any format. -/
theorem C15_error (out : Style → Table → Str) (e : PyErr) (path : Option Str) (f : Format) :
    render out (.error e) path f = .error e := rfl

example (out : Style → Table → Str) : render out (.ok []) (some "r".toList) .csv = .ok ([.write "r.csv".toList (out .csv [])], none) := rfl

/-! ## C96: date bounds -/

/-- **C96 is false of the code.** Restricting the balance sheet or transaction list of a ledger filled by a run with a date
string (which becomes a `date`) always fails: transactions of runs carry `datetime`s. -/
theorem C96_date_bound_raises (s : Structure) (comp : Str) (day : Int) (t : Tx) (ts : List Tx) :
    sheetSums s (.date day) ((t :: ts).map RTx.ofTx) = .error .typeError ∧
    (∀ stop, comp <+: t.source → (∀ x ∈ t :: ts, t.date ≤ x.date) →
      transactionList comp (.date day) stop ((t :: ts).map RTx.ofTx) = .error .typeError) := by
  constructor
  · simp [sheetSums, sheetLoop, RTx.ofTx, When.le]
  · intro stop hp hmin
    have h1 : ¬ ((((t :: ts).map RTx.ofTx).any (fun t => t.date.isDate) && ((t :: ts).map RTx.ofTx).any (fun t => !t.date.isDate)) = true) := by
      have : ((t :: ts).map RTx.ofTx).any (fun t => t.date.isDate) = false := by
        rw [List.any_eq_false]
        intro x hx
        rw [List.mem_map] at hx
        obtain ⟨y, _, rfl⟩ := hx
        simp [RTx.ofTx, When.isDate]
      rw [this]; simp
    simp only [transactionList, sortByDate, if_neg h1]
    have h2 : ((t :: ts).map RTx.ofTx).insertionSort (fun a b => a.date.key ≤ b.date.key) =
        RTx.ofTx t :: (ts.map RTx.ofTx).insertionSort (fun a b => a.date.key ≤ b.date.key) := by
      rw [List.map_cons]
      apply List.insertionSort_cons_of_forall_rel
      intro x hx
      rw [List.mem_map] at hx
      obtain ⟨y, hy, rfl⟩ := hx
      exact hmin y (by simp [hy])
    rw [h2]
    simp [txRows, RTx.ofTx, hp, within, When.le, bind, Except.bind]

/-- **C96 (what holds).** With `datetime` bounds (the defaults are such) both reports of a ledger filled by a run succeed,
if the accounts exist. -/
theorem C96_datetime_bound_partial (s : Structure) (comp : Str) (a b : Int) (ts : List Tx)
    (ha : ∀ t ∈ ts, (typeOf s t.cr).isSome ∧ (typeOf s t.dt).isSome) :
    (∃ r, sheetSums s (.datetime b) (ts.map RTx.ofTx) = .ok r) ∧
    (∃ r, transactionList comp (.datetime a) (.datetime b) (ts.map RTx.ofTx) = .ok r) := by
  constructor
  · apply C10_succeeds
    · intro x hx
      rw [List.mem_map] at hx
      obtain ⟨y, _, rfl⟩ := hx; rfl
    · intro x hx
      simp only [upTo, List.mem_filter, List.mem_map] at hx
      obtain ⟨⟨y, hy, rfl⟩, _⟩ := hx
      exact ⟨_, _, rfl, rfl, ha y hy⟩
  · apply C11_succeeds
    · rfl
    · intro x hx
      rw [List.mem_map] at hx
      obtain ⟨y, _, rfl⟩ := hx
      exact ⟨rfl, rfl⟩

open Auxi.Business.Props in
example : (sheetSums chart0.str (.datetime (1 + Business.dtMax)) ((ledgerOf (Business.Spec.runEntityFor clkM 14 ent0)).map RTx.ofTx)).isOk = true ∧
    (ledgerOf (Business.Spec.runEntityFor clkM 14 ent0)).length > 10 := by
  constructor <;> decide +kernel

end Auxi.Reports.Props
