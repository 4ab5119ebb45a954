import Verif.Props.Reports
import Verif.Spec.ReportFaults

/-! # C10, C11, C13: when a report is refused, and with which exception -/
namespace Auxi.Reports.Props
open Auxi.Reports Auxi.Reports.Spec Auxi.Ledger Auxi.Business

/-- The look-up of an account by the reports fails where that of C04 and C05 does. -/
theorem getRef_missing (s : Structure) (p : Str) (h : Ledger.Spec.walk s.accounts (Ledger.Spec.segments p) = none) :
    getRef s p = if '/' ∈ p ∧ ∃ a ∈ s.accounts, some a.name = (Ledger.Spec.segments p).head? then .error .indexError else .ok none := by
  unfold getRef
  rw [splitSlash_eq]
  cases h1 : split1 p with
  | none =>
    obtain ⟨h2, h3⟩ := (split1_segments p).1 h1
    rw [h2] at h ⊢
    simp only [Ledger.Spec.walk] at h
    rw [if_neg (fun hh => h3 hh.1)]
    dsimp only
    rw [(find_findIdx s.accounts p).1.1 h]
  | some xy =>
    obtain ⟨x, y⟩ := xy
    obtain ⟨h2, h3, h4⟩ := (split1_segments p).2 x y h1
    have hp : '/' ∈ p := by rw [h4]; simp
    rw [h2] at h ⊢
    cases hy : Ledger.Spec.segments y with
    | nil => exact absurd hy (segments_ne_nil y)
    | cons a r =>
      rw [hy] at h
      dsimp only
      simp only [Ledger.Spec.walk] at h
      obtain ⟨f1, f2⟩ := find_findIdx s.accounts x
      cases hf : s.accounts.find? (fun c => c.name = x) with
      | none =>
        rw [f1.1 hf, if_neg]
        rintro ⟨-, b, hb, hbx⟩
        have := List.find?_eq_none.1 hf b hb
        simp only [List.head?_cons, Option.some.injEq] at hbx
        simp [hbx] at this
      | some c =>
        rw [hf] at h
        obtain ⟨i, g1, g2⟩ := (f2 c).1 hf
        rw [g1]
        dsimp only
        rw [g2]
        dsimp only
        rw [(childRef_spec (a :: r) [i] c (by simp)).2 h, if_pos]
        · rfl
        · have := List.find?_some hf
          exact ⟨hp, c, List.mem_of_find?_eq_some hf, by simpa using this⟩

theorem acctType_eq (s : Structure) (o : Option Str) : acctType s o = match typeOf? s o with
    | some ty => .ok ty
    | none => .error ((accountFault s o).getD .exception) := by
  cases o with
  | none => rfl
  | some p =>
    unfold typeOf?
    cases ht : typeOf s p with
    | some ty => dsimp only; rw [ht]; exact acctType_of_typeOf ht
    | none =>
      have hw : Ledger.Spec.walk s.accounts (Ledger.Spec.segments p) = none := by
        unfold typeOf at ht
        exact Option.map_eq_none_iff.1 ht
      unfold acctType accountFault
      dsimp only
      rw [getRef_missing s p hw, ht]
      by_cases hh : '/' ∈ p ∧ ∃ a ∈ s.accounts, some a.name = (Ledger.Spec.segments p).head?
      · simp only [if_pos hh]; rfl
      · simp only [if_neg hh]; rfl

theorem accountFault_iff (s : Structure) (o : Option Str) : (accountFault s o = none ↔ (typeOf? s o).isSome) := by
  cases o with
  | none => simp [accountFault, typeOf?]
  | some p =>
    unfold accountFault typeOf?
    dsimp only
    split
    · rename_i h; simp [h]
    · rename_i h; split <;> simp [h]

/-- The result of looking up an account: its type, or the fault. -/
theorem acctType_fault (s : Structure) (o : Option Str) :
    (∀ e, accountFault s o = some e → acctType s o = .error e) ∧ (accountFault s o = none → ∃ ty, acctType s o = .ok ty) := by
  rw [acctType_eq]
  constructor
  · intro e he
    have : typeOf? s o = none := by
      by_contra hh
      have := (accountFault_iff s o).2 (Option.isSome_iff_ne_none.2 hh)
      rw [this] at he; cases he
    rw [this, he]; rfl
  · intro h
    obtain ⟨ty, hty⟩ := Option.isSome_iff_exists.1 ((accountFault_iff s o).1 h)
    rw [hty]
    exact ⟨ty, rfl⟩

theorem le_kinds (a b : When) : a.le b = if a.isDate = b.isDate then .ok (notAfter a b) else .error .typeError := by
  cases a <;> cases b <;> simp [When.le, When.isDate, notAfter]

theorem sheetLoop_fault (s : Structure) (stop : When) : ∀ (txs : List RTx) (b : Sheet),
    (∀ e, txs.findSome? (sheetFault s stop) = some e → sheetLoop s stop b txs = .error e) ∧ (txs.findSome? (sheetFault s stop) = none → ∃ b', sheetLoop s stop b txs = .ok b')
  | [], b => ⟨fun e h => by (cases h), fun _ => ⟨b, rfl⟩⟩
  | t :: ts, b => by
    unfold sheetLoop
    rw [le_kinds, List.findSome?_cons]
    unfold sheetFault
    by_cases hk : t.date.isDate = stop.isDate
    · rw [if_pos hk, if_neg (not_not.2 hk)]
      cases hn : notAfter t.date stop with
      | false => exact sheetLoop_fault s stop ts b
      | true =>
        dsimp only
        rw [if_pos rfl]
        unfold accountsFault
        obtain ⟨c1, c2⟩ := acctType_fault s t.cr
        obtain ⟨d1, d2⟩ := acctType_fault s t.dt
        cases hc : accountFault s t.cr with
        | some e => rw [c1 e hc]; exact ⟨fun e' h => by cases h; rfl, fun h => by cases h⟩
        | none =>
          obtain ⟨ty, hty⟩ := c2 hc
          rw [hty]
          dsimp only
          cases hd : accountFault s t.dt with
          | some e => rw [d1 e hd]; exact ⟨fun e' h => by cases h; rfl, fun h => by cases h⟩
          | none =>
            obtain ⟨ty', hty'⟩ := d2 hd
            rw [hty']
            exact sheetLoop_fault s stop ts _
    · rw [if_neg hk, if_pos hk]
      exact ⟨fun e h => by cases h; rfl, fun h => by cases h⟩

/-- **C10 (refused).** A balance sheet can be made exactly if nothing is wrong with any transaction, and otherwise the exception is that of the first transaction of the ledger with which something
is wrong: `TypeError` for a date that cannot be compared with the end or a missing account, `AttributeError` or `IndexError` for an account the chart does not have.  Transactions after the end
need no accounts. -/
theorem C10_refused (s : Structure) (stop : When) (txs : List RTx) (e : PyErr) :
    (sheetSums s stop txs = .error e ↔ txs.findSome? (sheetFault s stop) = some e) ∧ ((∃ b, sheetSums s stop txs = .ok b) ↔ ∀ t ∈ txs, sheetFault s stop t = none) := by
  obtain ⟨h1, h2⟩ := sheetLoop_fault s stop txs ⟨[], [], []⟩
  unfold sheetSums
  rw [← List.findSome?_eq_none_iff]
  cases h : txs.findSome? (sheetFault s stop) with
  | some e' => rw [h1 e' h]; simp
  | none => obtain ⟨b, hb⟩ := h2 h; rw [hb]; simp

theorem within_fault (start stop : When) (t : RTx) : within start stop t.date = match periodFault start stop t with
    | some e => .error e
    | none => .ok (notAfter start t.date && notAfter t.date stop) := by
  unfold within periodFault
  rw [le_kinds, le_kinds]
  by_cases h1 : t.date.isDate = start.isDate
  · rw [if_pos h1.symm, if_neg (not_not.2 h1)]
    cases hn : notAfter start t.date with
    | false => simp [bind, Except.bind, pure, Except.pure]
    | true =>
      by_cases h2 : t.date.isDate = stop.isDate
      · simp [bind, Except.bind, h2]
      · simp [bind, Except.bind, h2]
  · rw [if_neg (fun h => h1 h.symm), if_pos h1]; rfl

theorem incomeLoop_fault (s : Structure) (comp : Str) (start stop : When) : ∀ (txs : List RTx) (b : Income),
    (∀ e, txs.findSome? (incomeFault s comp start stop) = some e → incomeLoop s comp start stop b txs = .error e) ∧
    (txs.findSome? (incomeFault s comp start stop) = none → ∃ b', incomeLoop s comp start stop b txs = .ok b')
  | [], b => ⟨fun e h => by (cases h), fun _ => ⟨b, rfl⟩⟩
  | t :: ts, b => by
    unfold incomeLoop
    rw [List.findSome?_cons]
    cases hs : t.source with
    | none => rw [show incomeFault s comp start stop t = some .attributeError by unfold incomeFault; rw [hs]]; exact ⟨fun e h => by cases h; rfl, fun h => by cases h⟩
    | some src =>
      dsimp only
      cases hc : comp.isPrefixOf src with
      | false =>
        rw [show incomeFault s comp start stop t = none by unfold incomeFault; rw [hs]; dsimp only; rw [hc]; rfl]
        exact incomeLoop_fault s comp start stop ts b
      | true =>
        have hsel : selected comp start stop t = (notAfter start t.date && notAfter t.date stop) := by unfold selected; rw [hs]; dsimp only; rw [hc, Bool.true_and]
        have hin : incomeFault s comp start stop t = (periodFault start stop t).or (if (notAfter start t.date && notAfter t.date stop) = true then accountsFault s t else none) := by
          unfold incomeFault; rw [hs]; dsimp only; rw [hc, if_pos rfl, hsel]
        rw [if_pos rfl, within_fault, hin]
        cases hp : periodFault start stop t with
        | some e => exact ⟨fun e h => by cases h; rfl, fun h => by cases h⟩
        | none =>
          dsimp only
          rw [Option.none_or]
          cases hn : (notAfter start t.date && notAfter t.date stop) with
          | false => exact incomeLoop_fault s comp start stop ts b
          | true =>
            dsimp only
            rw [if_pos rfl]
            unfold accountsFault
            obtain ⟨c1, c2⟩ := acctType_fault s t.cr
            obtain ⟨d1, d2⟩ := acctType_fault s t.dt
            cases hc : accountFault s t.cr with
            | some e => rw [c1 e hc]; exact ⟨fun e' h => by cases h; rfl, fun h => by cases h⟩
            | none =>
              obtain ⟨ty, hty⟩ := c2 hc
              rw [hty]
              dsimp only
              cases hd : accountFault s t.dt with
              | some e => rw [d1 e hd]; exact ⟨fun e' h => by cases h; rfl, fun h => by cases h⟩
              | none =>
                obtain ⟨ty', hty'⟩ := d2 hd
                rw [hty']
                exact incomeLoop_fault s comp start stop ts _

/-- **C13 (refused).** An income statement can be made exactly if nothing is wrong with any transaction, and otherwise the exception is that of the first transaction of the ledger with which
something is wrong. -/
theorem C13_refused (s : Structure) (comp : Str) (start stop : When) (txs : List RTx) (e : PyErr) :
    (incomeStatement s comp start stop txs = .error e ↔ txs.findSome? (incomeFault s comp start stop) = some e) ∧
    ((∃ b, incomeStatement s comp start stop txs = .ok b) ↔ ∀ t ∈ txs, incomeFault s comp start stop t = none) := by
  obtain ⟨h1, h2⟩ := incomeLoop_fault s comp start stop txs ⟨[], []⟩
  unfold incomeStatement incomeSums
  rw [← List.findSome?_eq_none_iff]
  cases h : txs.findSome? (incomeFault s comp start stop) with
  | some e' => rw [h1 e' h]; simp [Except.map]
  | none => obtain ⟨b, hb⟩ := h2 h; rw [hb]; simp [Except.map]

theorem txRows_fault (comp : Str) (start stop : When) : ∀ (txs : List RTx),
    (∀ e, txs.findSome? (listFault comp start stop) = some e → txRows comp start stop txs = .error e) ∧
    (txs.findSome? (listFault comp start stop) = none → ∃ b, txRows comp start stop txs = .ok b)
  | [] => ⟨fun e h => by (cases h), fun _ => ⟨_, rfl⟩⟩
  | t :: ts => by
    obtain ⟨i1, i2⟩ := txRows_fault comp start stop ts
    unfold txRows
    rw [List.findSome?_cons]
    unfold listFault
    cases hs : t.source with
    | none => exact ⟨fun e h => by cases h; rfl, fun h => by cases h⟩
    | some src =>
      dsimp only
      cases hc : comp.isPrefixOf src with
      | false => exact ⟨i1, i2⟩
      | true =>
        rw [if_pos rfl, if_pos rfl, within_fault]
        cases hp : periodFault start stop t with
        | some e => exact ⟨fun e h => by cases h; rfl, fun h => by cases h⟩
        | none =>
          dsimp only
          cases hn : (notAfter start t.date && notAfter t.date stop) with
          | false => exact ⟨i1, i2⟩
          | true =>
            refine ⟨fun e h => ?_, fun h => ?_⟩
            · rw [i1 e h]
            · obtain ⟨⟨r, tot⟩, hb⟩ := i2 h; rw [hb]; exact ⟨_, rfl⟩

/-- **C11 (refused).** A transaction list is refused with `TypeError` if the ledger has dates of both kinds, and otherwise with the exception of the first transaction, in the order of the dates,
with which something is wrong: `AttributeError` without a source, `TypeError` for a date that cannot be compared with the bounds.  It can be made if nothing is wrong. -/
theorem C11_refused (comp : Str) (start stop : When) (txs : List RTx) :
    ((∃ t ∈ txs, ∃ t' ∈ txs, t.date.isDate ≠ t'.date.isDate) → transactionList comp start stop txs = .error .typeError) ∧
    ((∀ t ∈ txs, ∀ t' ∈ txs, t.date.isDate = t'.date.isDate) → ∃ l : List RTx, l.Perm txs ∧ l.Pairwise (fun a b => a.date.key ≤ b.date.key) ∧
      ∀ e, (transactionList comp start stop txs = .error e ↔ l.findSome? (listFault comp start stop) = some e) ∧
        ((∃ b, transactionList comp start stop txs = .ok b) ↔ ∀ t ∈ txs, listFault comp start stop t = none)) := by
  have hany : (txs.any (fun t => t.date.isDate) && txs.any (fun t => !t.date.isDate)) = true ↔ ∃ t ∈ txs, ∃ t' ∈ txs, t.date.isDate ≠ t'.date.isDate := by
    simp only [Bool.and_eq_true, List.any_eq_true, Bool.not_eq_true']
    constructor
    · rintro ⟨⟨a, ha, ha'⟩, ⟨b, hb, hb'⟩⟩; exact ⟨a, ha, b, hb, by rw [ha', hb']; decide⟩
    · rintro ⟨a, ha, b, hb, hab⟩
      cases h1 : a.date.isDate <;> cases h2 : b.date.isDate <;> rw [h1, h2] at hab
      · exact absurd rfl hab
      · exact ⟨⟨b, hb, h2⟩, ⟨a, ha, h1⟩⟩
      · exact ⟨⟨a, ha, h1⟩, ⟨b, hb, h2⟩⟩
      · exact absurd rfl hab
  unfold transactionList sortByDate
  constructor
  · intro h
    rw [if_pos (hany.2 h)]
  · intro h
    rw [if_neg (fun hh => by obtain ⟨a, ha, b, hb, hab⟩ := hany.1 hh; exact hab (h a ha b hb))]
    have pm := List.perm_insertionSort (fun a b : RTx => a.date.key ≤ b.date.key) txs
    refine ⟨_, pm, List.pairwise_insertionSort (fun a b : RTx => a.date.key ≤ b.date.key) txs, fun e => ?_⟩
    have hmem : (∀ t ∈ txs, listFault comp start stop t = none) ↔ ∀ t ∈ txs.insertionSort (fun a b => a.date.key ≤ b.date.key), listFault comp start stop t = none :=
      forall_congr' fun t => by rw [pm.mem_iff]
    rw [hmem, ← List.findSome?_eq_none_iff]
    obtain ⟨h1, h2⟩ := txRows_fault comp start stop (txs.insertionSort (fun a b => a.date.key ≤ b.date.key))
    dsimp only
    cases hf : (txs.insertionSort (fun a b => a.date.key ≤ b.date.key)).findSome? (listFault comp start stop) with
    | some e' => rw [h1 e' hf]; simp
    | none => obtain ⟨⟨r, tot⟩, hb⟩ := h2 hf; rw [hb]; simp

/-- The three kinds of fault, in a ledger that has none of them up to the second day. -/
example : let t : RTx := mk 5 "/E" "Bank/Default" "Sales" 1
    txs0.findSome? (sheetFault gls (.date 8)) = none ∧
    ([t, { t with cr := none }].findSome? (sheetFault gls (.date 8)) = some .typeError) ∧ [t, { t with dt := some "Bank/Nope".toList }].findSome? (sheetFault gls (.date 8)) = some .indexError ∧
    [t, { t with dt := some "Nope".toList }].findSome? (incomeFault gls [] (.date 0) (.date 8)) = some .attributeError ∧
    [t, { t with source := none }].findSome? (listFault [] (.date 0) (.date 8)) = some .attributeError ∧
    [t, { t with date := .datetime 5 }].findSome? (listFault [] (.datetime 0) (.date 8)) = some .typeError := by
  decide +kernel

end Auxi.Reports.Props
