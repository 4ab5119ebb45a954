import Verif.Spec.ReportsAdd
import Verif.Props.Reports

/-! # C145: reports of adjoining periods add up, and the reports agree with each other -/
namespace Auxi.Reports.Props
open Auxi.Reports Auxi.Reports.Spec Auxi.Ledger Auxi.Business

theorem filter_split {P P1 P2 : RTx → Bool} : ∀ (l : List RTx), l.Pairwise (fun a b => a.date.key ≤ b.date.key) →
    (∀ t ∈ l, P t = (P1 t || P2 t)) → (∀ t ∈ l, P1 t = true → P2 t = false) → (∀ x ∈ l, ∀ y ∈ l, P2 x = true → P1 y = true → y.date.key < x.date.key) →
    l.filter P = l.filter P1 ++ l.filter P2 := by
  intro l
  induction l with
  | nil => intro _ _ _ _; rfl
  | cons x l ih =>
    intro hs hp hd hk
    have ih' := ih (List.Pairwise.of_cons hs) (fun t ht => hp t (by simp [ht])) (fun t ht => hd t (by simp [ht])) (fun x hx y hy => hk x (by simp [hx]) y (by simp [hy]))
    have h0 := hp x (by simp)
    by_cases h1 : P1 x = true
    · have h2 := hd x (by simp) h1
      rw [List.filter_cons_of_pos (by rw [h0, h1]; rfl), List.filter_cons_of_pos h1, List.filter_cons_of_neg (by simp [h2]), ih']
      rfl
    · by_cases h2 : P2 x = true
      · have hno : l.filter P1 = [] := by
          rw [List.filter_eq_nil_iff]
          intro y hy hy1
          have a := hk x (by simp) y (by simp [hy]) h2 hy1
          have b := List.rel_of_pairwise_cons hs hy
          omega
        rw [List.filter_cons_of_pos (by rw [h0, h2]; simp), List.filter_cons_of_neg (by simpa using h1), List.filter_cons_of_pos h2, ih', hno]
        rfl
      · rw [List.filter_cons_of_neg (by rw [h0]; simp [h1, h2]), List.filter_cons_of_neg (by simpa using h1), List.filter_cons_of_neg (by simpa using h2), ih']

theorem notAfter_trans {a b c : When} (h1 : notAfter a b = true) (h2 : notAfter b c = true) : notAfter a c = true := by
  cases a <;> cases b <;> cases c <;> simp [notAfter] at * <;> omega

theorem notAfter_key {a b : When} (h : notAfter a b = true) : a.key ≤ b.key ∧ a.isDate = b.isDate := by
  cases a <;> cases b <;> simp_all [notAfter, When.key, When.isDate]

theorem notAfter_lt {a b d : When} (h : notAfter a b = true) (h2 : notAfter d b = false) (hd : d.isDate = b.isDate) : a.key < d.key := by
  cases a <;> cases b <;> cases d <;> simp_all [notAfter, When.key, When.isDate] <;> omega

theorem list_rows {comp : Str} {start stop : When} {txs : List RTx} {t : Table} (h : transactionList comp start stop txs = .ok t) :
    t = [tx "Date", tx "Source", tx "Tx Name", tx "Debit Account", tx "Credit Account", tx "Amount", tx "Description"] ::
        ((txs.insertionSort (fun a b => a.date.key ≤ b.date.key)).filter (selected comp start stop)).map (fun t => txRow t (t.source.getD [])) ++
        [[tx "", tx "", tx "Total", tx "", tx "", .money ((((txs.insertionSort (fun a b => a.date.key ≤ b.date.key)).filter (selected comp start stop)).map RTx.amount).sum), tx ""]] := by
  unfold transactionList sortByDate at h
  split at h
  · cases h
  · rename_i l0 hl0
    split at hl0
    · cases hl0
    · simp only [Except.ok.injEq] at hl0
      split at h
      · cases h
      · rename_i rows tot hr
        obtain ⟨r1, r2⟩ := txRows_ok _ _ _ hr
        simp only [Except.ok.injEq] at h
        rw [← h, r1, r2, hl0]

/-- **C145.** The transaction list of a period is those of its two parts one after the other, and its total is the sum of theirs. -/
theorem C145_list (comp : Str) (a b b' c : When) (txs : List RTx) (hcut : Cut b b' txs) (hab : notAfter a b' = true) (hbc : notAfter b c = true) (t t1 t2 : Table)
    (h : transactionList comp a c txs = .ok t) (h1 : transactionList comp a b txs = .ok t1) (h2 : transactionList comp b' c txs = .ok t2) :
    ∃ (head : List Cell) (r1 r2 : Table) (x y : ℚ),
      t1 = head :: r1 ++ [[tx "", tx "", tx "Total", tx "", tx "", .money x, tx ""]] ∧ t2 = head :: r2 ++ [[tx "", tx "", tx "Total", tx "", tx "", .money y, tx ""]] ∧
        t = head :: (r1 ++ r2) ++ [[tx "", tx "", tx "Total", tx "", tx "", .money (x + y), tx ""]] := by
  have e := filter_split (P := selected comp a c) (P1 := selected comp a b) (P2 := selected comp b' c) (txs.insertionSort (fun a b => a.date.key ≤ b.date.key)) (List.pairwise_insertionSort _ _) ?_ ?_ ?_
  · refine ⟨_, _, _, _, _, list_rows h1, list_rows h2, ?_⟩
    rw [list_rows h, e, List.map_append, List.map_append, List.sum_append]
  · intro t ht
    rw [List.mem_insertionSort] at ht
    unfold selected
    rcases hcut t ht with ⟨x1, x2⟩ | ⟨x1, x2⟩
    · rw [x1, x2, notAfter_trans x1 hbc]; simp
    · rw [x1, x2, notAfter_trans hab x2]; simp
  · intro t ht hs
    rw [List.mem_insertionSort] at ht
    unfold selected at hs ⊢
    simp only [Bool.and_eq_true] at hs
    rcases hcut t ht with ⟨x1, x2⟩ | ⟨x1, x2⟩
    · rw [x2]; simp
    · rw [x1] at hs; simp at hs
  · intro x hx y hy hs hy1
    rw [List.mem_insertionSort] at hx hy
    unfold selected at hs hy1
    simp only [Bool.and_eq_true] at hs hy1
    rcases hcut x hx with ⟨x1, x2⟩ | ⟨x1, x2⟩
    · rw [x2] at hs; simp at hs
    · refine notAfter_lt hy1.2 x1 ?_
      rw [← (notAfter_key x2).2, ← (notAfter_key hab).2, (notAfter_key hy1.1.2).2, (notAfter_key hy1.2).2]

/-- Two days after each other are the end of one period and the start of the next, for a ledger with dates. -/
theorem C145_days (d : Int) (txs : List RTx) (h : ∀ t ∈ txs, ∃ k, t.date = .date k) : Cut (.date d) (.date (d + 1)) txs := by
  intro t ht
  obtain ⟨k, hk⟩ := h t ht
  rw [hk]
  simp only [notAfter, decide_eq_true_eq, decide_eq_false_iff_not]
  omega

theorem netCredit_append (p : Str) (l m : List RTx) : netCredit p (l ++ m) = netCredit p l + netCredit p m := by
  unfold netCredit; rw [List.map_append, List.sum_append]

theorem netCredit_perm {p : Str} {l m : List RTx} (h : l.Perm m) : netCredit p l = netCredit p m := by
  unfold netCredit; exact (h.map _).sum_eq

theorem netCreditOf_perm {s : Structure} {P : AccountType → Bool} {l m : List RTx} (h : l.Perm m) : netCreditOf s P l = netCreditOf s P m := by
  unfold netCreditOf; exact (h.map _).sum_eq

theorem upTo_between {b c : When} {txs : List RTx} (hbc : notAfter b c = true) : (upTo c txs).Perm (upTo b txs ++ between b c txs) := by
  unfold upTo between
  induction txs with
  | nil => exact List.Perm.refl _
  | cons t l ih =>
    by_cases h1 : notAfter t.date b = true
    · have h2 := notAfter_trans h1 hbc
      simp only [List.filter_cons, h1, h2, if_true, Bool.not_true, Bool.and_false, Bool.false_eq_true, if_false]
      exact ih.cons _
    · by_cases h2 : notAfter t.date c = true
      · simp only [List.filter_cons, h1, h2, if_true, Bool.not_false, Bool.and_true, if_false, Bool.false_eq_true]
        exact (ih.cons t).trans List.perm_middle.symm
      · simp only [List.filter_cons, h1, h2, if_false, Bool.false_and, Bool.false_eq_true]
        exact ih

theorem figures {s : Structure} {stop : When} {txs : List RTx} {b : Sheet} (h : sheetSums s stop txs = .ok b) (p : Str) :
    (figure p b.assets = if typeOf s p = some .asset then - netCredit p (upTo stop txs) else 0) ∧
    (figure p b.liabilities = if typeOf s p = some .liability then netCredit p (upTo stop txs) else 0) ∧
    (figure p b.equity = if typeOf s p = some .equity then netCredit p (upTo stop txs) else 0) := by
  obtain ⟨h1, h2, h3, -⟩ := C10_entries s stop txs b h p
  unfold figure
  rw [h1, h2, h3]
  by_cases ht : Touched p (upTo stop txs)
  · refine ⟨?_, ?_, ?_⟩
    all_goals
      split
      · rename_i hc; rw [if_pos hc.1]; rfl
      · rename_i hc; rw [if_neg (fun hx => hc ⟨hx, ht⟩)]; rfl
  · have hn := netCredit_untouched ht
    refine ⟨?_, ?_, ?_⟩
    all_goals
      rw [if_neg (fun hc => ht hc.2), hn]
      simp

/-- **C145.** From one balance sheet to a later one, every asset grows by what was debited to it less what was credited, every liability and equity account by what was credited less what was debited. -/
theorem C145_sheet (s : Structure) (b c : When) (txs : List RTx) (hbc : notAfter b c = true) (x y : Sheet) (hx : sheetSums s b txs = .ok x) (hy : sheetSums s c txs = .ok y) (p : Str) :
    (typeOf s p = some .asset → figure p y.assets = figure p x.assets - netCredit p (between b c txs)) ∧
    (typeOf s p = some .liability → figure p y.liabilities = figure p x.liabilities + netCredit p (between b c txs)) ∧
    (typeOf s p = some .equity → figure p y.equity = figure p x.equity + netCredit p (between b c txs)) := by
  obtain ⟨x1, x2, x3⟩ := figures hx p
  obtain ⟨y1, y2, y3⟩ := figures hy p
  have e := (netCredit_perm (p := p) (upTo_between (txs := txs) hbc)).trans (netCredit_append p _ _)
  refine ⟨fun ht => ?_, fun ht => ?_, fun ht => ?_⟩
  · rw [y1, x1, if_pos ht, if_pos ht, e]; ring
  · rw [y2, x2, if_pos ht, if_pos ht, e]
  · rw [y3, x3, if_pos ht, if_pos ht, e]

theorem dictSum_figures {s : Structure} {stop : When} {txs : List RTx} {b : Sheet} (h : sheetSums s stop txs = .ok b) :
    dictSum b.assets = - netCreditOf s (fun t => decide (t = .asset)) (upTo stop txs) ∧ dictSum b.liabilities = netCreditOf s (fun t => decide (t = .liability)) (upTo stop txs) ∧ dictSum b.equity = netCreditOf s (fun t => decide (t = .equity)) (upTo stop txs) := by
  obtain ⟨i1, i2, i3, -⟩ := sheet_inv txs _ b h
  rw [i1.sum, i2.sum, i3.sum]
  simp [dictSum]

/-- **C145.** The order of the ledger plays no part in the figures and totals of a balance sheet. -/
theorem C145_order (s : Structure) (stop : When) (txs txs' : List RTx) (hp : txs.Perm txs') (x y : Sheet) (hx : sheetSums s stop txs = .ok x) (hy : sheetSums s stop txs' = .ok y) :
    (∀ p, figure p x.assets = figure p y.assets ∧ figure p x.liabilities = figure p y.liabilities ∧ figure p x.equity = figure p y.equity) ∧
      dictSum x.assets = dictSum y.assets ∧ dictSum x.liabilities = dictSum y.liabilities ∧ dictSum x.equity = dictSum y.equity := by
  have hu : (upTo stop txs).Perm (upTo stop txs') := hp.filter _
  constructor
  · intro p
    obtain ⟨x1, x2, x3⟩ := figures hx p
    obtain ⟨y1, y2, y3⟩ := figures hy p
    rw [x1, x2, x3, y1, y2, y3, netCredit_perm hu]
    exact ⟨rfl, rfl, rfl⟩
  · obtain ⟨x1, x2, x3⟩ := dictSum_figures hx
    obtain ⟨y1, y2, y3⟩ := dictSum_figures hy
    rw [x1, x2, x3, y1, y2, y3, netCreditOf_perm hu, netCreditOf_perm hu, netCreditOf_perm hu]
    exact ⟨rfl, rfl, rfl⟩

theorem find_filter {p q : RTx → Bool} : ∀ {l : List RTx} {t : RTx}, l.find? q = some t → p t = true → (l.filter p).find? q = some t := by
  intro l
  induction l with
  | nil => intro t h; cases h
  | cons x l ih =>
    intro t h hp
    by_cases hq : q x = true
    · rw [List.find?_cons_of_pos hq] at h
      cases h
      rw [List.filter_cons_of_pos hp, List.find?_cons_of_pos hq]
    · rw [List.find?_cons_of_neg hq] at h
      by_cases hx : p x = true
      · rw [List.filter_cons_of_pos hx, List.find?_cons_of_neg hq]; exact ih h hp
      · rw [List.filter_cons_of_neg hx]; exact ih h hp

theorem first_union {credit : Bool} {p : Str} {l : List RTx} {P1 P2 : RTx → Bool} (hu : ∀ t ∈ l, P1 t = true ∨ P2 t = true) (h1 : firstOnSide credit p (l.filter P1)) (h2 : firstOnSide credit p (l.filter P2)) :
    firstOnSide credit p l := by
  unfold firstOnSide at *
  cases h : l.find? (fun t => t.cr = some p ∨ t.dt = some p) with
  | none => trivial
  | some t =>
    rcases hu t (List.mem_of_find?_eq_some h) with ht | ht
    · rw [find_filter h ht] at h1; exact h1
    · rw [find_filter h ht] at h2; exact h2

theorem counting_parts {a b b' c : When} {txs : List RTx} (hcut : Cut b b' txs) (hab : notAfter a b' = true) (hbc : notAfter b c = true) :
    (counting a c txs).Perm (counting a b txs ++ counting b' c txs) ∧ counting a b txs = (counting a c txs).filter (fun t => notAfter t.date b) ∧ counting b' c txs = (counting a c txs).filter (fun t => notAfter b' t.date) := by
  have e1 : counting a b txs = (counting a c txs).filter (fun t => notAfter t.date b) := by
    unfold counting
    rw [List.filter_filter]
    apply List.filter_congr
    intro t ht
    unfold selected
    by_cases h : notAfter t.date b = true
    · rw [h, notAfter_trans h hbc]; simp
    · have : notAfter t.date b = false := by simpa using h
      rw [this]; simp
  have e2 : counting b' c txs = (counting a c txs).filter (fun t => notAfter b' t.date) := by
    unfold counting
    rw [List.filter_filter]
    apply List.filter_congr
    intro t ht
    unfold selected
    by_cases h : notAfter b' t.date = true
    · rw [h, notAfter_trans hab h]; simp
    · have : notAfter b' t.date = false := by simpa using h
      rw [this]; simp
  refine ⟨?_, e1, e2⟩
  rw [e1, e2]
  have hc : ∀ t ∈ counting a c txs, notAfter b' t.date = !notAfter t.date b := by
    intro t ht
    have := hcut t (List.mem_of_mem_filter ht)
    rcases this with ⟨x, y⟩ | ⟨x, y⟩ <;> rw [x, y] <;> rfl
  rw [List.filter_congr hc]
  exact (List.filter_append_perm _ _).symm

theorem netCreditOf_append (s : Structure) (P : AccountType → Bool) (l m : List RTx) : netCreditOf s P (l ++ m) = netCreditOf s P l + netCreditOf s P m := by
  unfold netCreditOf; rw [List.map_append, List.sum_append]

theorem income_figures {s : Structure} {start stop : When} {txs : List RTx} {b : Income} (hs : typeOf s [] = none) (h : incomeSums s [] start stop txs = .ok b) (hw : WellSided s (counting start stop txs)) :
    netIncome b = netCreditOf s isIncome (counting start stop txs) ∧
      (∀ p, figure p b.income = if typeOf s p = some .revenue then netCredit p (counting start stop txs) else 0) ∧
      (∀ p, figure p b.expenses = if typeOf s p = some .expense then - netCredit p (counting start stop txs) else 0) := by
  obtain ⟨h1, h2, h3, h4, h5, -⟩ := C13_net_income_partial s [] start stop txs b hs h hw.1 hw.2
  refine ⟨h1, fun p => ?_, fun p => ?_⟩
  · unfold figure
    by_cases ht : typeOf s p = some .revenue
    · rw [if_pos ht]
      by_cases hx : Touched p (counting start stop txs)
      · rw [h2 p ht hx]; rfl
      · rw [netCredit_untouched hx]
        cases hl : lookup p b.income with
        | none => rfl
        | some v => exact absurd (h4 p (by rw [hl]; simp)).2 hx
    · rw [if_neg ht]
      cases hl : lookup p b.income with
      | none => rfl
      | some v => exact absurd (h4 p (by rw [hl]; simp)).1 ht
  · unfold figure
    by_cases ht : typeOf s p = some .expense
    · rw [if_pos ht]
      by_cases hx : Touched p (counting start stop txs)
      · rw [h3 p ht hx]; rfl
      · rw [netCredit_untouched hx]
        cases hl : lookup p b.expenses with
        | none => rfl
        | some v => exact absurd (h5 p (by rw [hl]; simp)).2 hx
    · rw [if_neg ht]
      cases hl : lookup p b.expenses with
      | none => rfl
      | some v => exact absurd (h5 p (by rw [hl]; simp)).1 ht

/-- **C145.** Where, in each of two adjoining periods, every revenue account is first credited and every expense account first debited, the income statement of both periods together shows the sums of the figures of the two, and of their net incomes. -/
theorem C145_income (s : Structure) (a b b' c : When) (txs : List RTx) (hs : typeOf s [] = none) (hcut : Cut b b' txs) (hab : notAfter a b' = true) (hbc : notAfter b c = true)
    (x y z : Income) (hx : incomeSums s [] a b txs = .ok x) (hy : incomeSums s [] b' c txs = .ok y) (hz : incomeSums s [] a c txs = .ok z)
    (w1 : WellSided s (counting a b txs)) (w2 : WellSided s (counting b' c txs)) :
    netIncome z = netIncome x + netIncome y ∧ ∀ p, figure p z.income = figure p x.income + figure p y.income ∧ figure p z.expenses = figure p x.expenses + figure p y.expenses := by
  obtain ⟨hp, e1, e2⟩ := counting_parts (a := a) (c := c) hcut hab hbc
  have w : WellSided s (counting a c txs) := by
    have hu : ∀ t ∈ counting a c txs, notAfter t.date b = true ∨ notAfter b' t.date = true := by
      intro t ht
      rcases hcut t (List.mem_of_mem_filter ht) with h | h
      · exact .inl h.1
      · exact .inr h.2
    rw [e1] at w1
    rw [e2] at w2
    exact ⟨fun p ht => first_union hu (w1.1 p ht) (w2.1 p ht), fun p ht => first_union hu (w1.2 p ht) (w2.2 p ht)⟩
  obtain ⟨x1, x2, x3⟩ := income_figures hs hx w1
  obtain ⟨y1, y2, y3⟩ := income_figures hs hy w2
  obtain ⟨z1, z2, z3⟩ := income_figures hs hz w
  refine ⟨?_, fun p => ⟨?_, ?_⟩⟩
  · rw [x1, y1, z1, netCreditOf_perm hp, netCreditOf_append]
  · rw [x2, y2, z2, netCredit_perm hp, netCredit_append]
    split <;> simp
  · rw [x3, y3, z3, netCredit_perm hp, netCredit_append]
    split
    · ring
    · simp

/-- **C145.** In a ledger without closing transactions, what the balance sheet fails to balance by is the net income of the income statement up to the same date. -/
theorem C145_reconcile (s : Structure) (start stop : When) (txs : List RTx) (hs : typeOf s [] = none) (h : ∀ t ∈ txs, ordinary t = true ∧ t.source.isSome ∧ notAfter start t.date = true)
    (x : Sheet) (y : Income) (hx : sheetSums s stop txs = .ok x) (hy : incomeSums s [] start stop txs = .ok y) (w : WellSided s (upTo stop txs)) :
    dictSum x.assets - (dictSum x.liabilities + dictSum x.equity) = netIncome y := by
  have e : counting start stop txs = upTo stop txs := by
    unfold counting upTo
    apply List.filter_congr
    intro t ht
    obtain ⟨h1, h2, h3⟩ := h t ht
    obtain ⟨v, hv⟩ := Option.isSome_iff_exists.1 h2
    unfold selected
    rw [hv, h1, h3]
    simp [List.isPrefixOf]
  rw [C10_balance s stop txs x hx, (income_figures hs hy (by rw [e]; exact w)).1, e]

/-- Two months of trade: capital, sales, costs, and a refund in the second month. -/
def twoMonths : List RTx :=
  [mk 5 "/E/A" "Bank/Default" "Shareholders Loan" 1000, mk 9 "/E/A" "Bank/Default" "Sales" 100, mk 20 "/E/A" "Expense" "Bank/Default" 30,
   mk 33 "/E/A" "Sales" "Bank/Default" 10, mk 40 "/E/A" "Expense" "Bank/Default" 25]

/-- **C145 is false of the income statement.** A refund that is the first entry of its month is shown as income there, and as a reduction in the statement of both months. -/
theorem C145_income_violated :
    (incomeSums gls [] (.date 1) (.date 31) twoMonths).map netIncome = .ok 70 ∧ (incomeSums gls [] (.date 32) (.date 59) twoMonths).map netIncome = .ok (-15) ∧
      (incomeSums gls [] (.date 1) (.date 59) twoMonths).map netIncome = .ok 35 ∧ (70 + (-15) : ℚ) ≠ 35 := by decide +kernel

/-- A ledger of two sales for the examples. -/
def twoSales : List RTx := [mk 9 "/E/A" "Bank/Default" "Sales" 100, mk 40 "/E/A" "Bank/Default" "Sales" 50]

theorem twoSales_sided (l : List RTx) (h : ∀ t ∈ l, t.cr = some "Sales".toList ∧ t.dt = some "Bank/Default".toList) : WellSided gls l := by
  constructor
  · intro p hp
    unfold firstOnSide
    cases hf : l.find? (fun t => t.cr = some p ∨ t.dt = some p) with
    | none => trivial
    | some t =>
      have hm := List.mem_of_find?_eq_some hf
      have hq := List.find?_some hf
      obtain ⟨h1, h2⟩ := h t hm
      simp only [h1, h2, Option.some.injEq, decide_eq_true_eq] at hq
      rcases hq with rfl | rfl
      · exact h1
      · exact absurd hp (by decide +kernel)
  · intro p hp
    unfold firstOnSide
    cases hf : l.find? (fun t => t.cr = some p ∨ t.dt = some p) with
    | none => trivial
    | some t =>
      have hm := List.mem_of_find?_eq_some hf
      have hq := List.find?_some hf
      obtain ⟨h1, h2⟩ := h t hm
      simp only [h1, h2, Option.some.injEq, decide_eq_true_eq] at hq
      rcases hq with rfl | rfl
      · exact absurd hp (by decide +kernel)
      · exact absurd hp (by decide +kernel)

example : Cut (.date 31) (.date 32) twoSales ∧ WellSided gls (counting (.date 1) (.date 31) twoSales) ∧ WellSided gls (counting (.date 32) (.date 59) twoSales) ∧ typeOf gls [] = none ∧
    (incomeSums gls [] (.date 1) (.date 59) twoSales).map netIncome = .ok 150 ∧ (incomeSums gls [] (.date 1) (.date 31) twoSales).map netIncome = .ok 100 ∧
    (sheetSums gls (.date 59) twoSales).map (fun b => dictSum b.assets) = .ok 150 ∧ (∀ t ∈ twoSales, ordinary t = true ∧ t.source.isSome = true ∧ notAfter (.date 1) t.date = true) := by
  have hall : ∀ t ∈ twoSales, t.cr = some "Sales".toList ∧ t.dt = some "Bank/Default".toList := by decide +kernel
  refine ⟨C145_days 31 _ ?_, twoSales_sided _ (fun t ht => hall t (List.mem_of_mem_filter ht)), twoSales_sided _ (fun t ht => hall t (List.mem_of_mem_filter ht)), by decide +kernel, by decide +kernel, by decide +kernel, by decide +kernel, by decide +kernel⟩
  intro t ht
  simp only [twoSales, List.mem_cons, List.not_mem_nil, or_false] at ht
  rcases ht with rfl | rfl <;> exact ⟨_, rfl⟩

example : (transactionList "/E".toList (.date 1) (.date 31) twoMonths).map List.length = .ok 5 ∧ (transactionList "/E".toList (.date 32) (.date 59) twoMonths).map List.length = .ok 4 ∧
    (transactionList "/E".toList (.date 1) (.date 59) twoMonths).map List.length = .ok 7 ∧ notAfter (.date 31) (.date 59) = true ∧ (sheetSums gls (.date 31) twoMonths).map (fun b => figure "Bank/Default".toList b.assets) = .ok 1070 ∧
    netCredit "Bank/Default".toList (between (.date 31) (.date 59) twoMonths) = 35 := by decide +kernel

end Auxi.Reports.Props
