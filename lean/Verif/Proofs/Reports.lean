import Mathlib.Tactic.Ring
import Mathlib.Tactic.Linarith
import Verif.Spec.Reports
import Verif.Proofs.YearEnd

namespace Auxi.Reports
open Spec Ledger Business

theorem acctType_some {s : Structure} {o : Option Str} {ty : AccountType} (h : acctType s o = .ok ty) :
    ∃ p, o = some p ∧ typeOf s p = some ty := by
  cases o with
  | none => cases h
  | some p =>
    refine ⟨p, rfl, ?_⟩
    unfold typeOf
    obtain ⟨h1, h2⟩ := getRef_spec s p
    cases hw : Ledger.Spec.walk s.accounts (Ledger.Spec.segments p) with
    | none =>
      rcases h2 hw with h3 | h3 <;> simp [acctType, h3] at h
    | some b =>
      obtain ⟨pos, h3, _⟩ := h1 b hw
      simp [acctType, h3] at h
      simp [h]

theorem acctType_of_typeOf {s : Structure} {p : Str} {ty : AccountType} (h : typeOf s p = some ty) :
    acctType s (some p) = .ok ty := by
  unfold typeOf at h
  cases hw : Ledger.Spec.walk s.accounts (Ledger.Spec.segments p) with
  | none => simp [hw] at h
  | some b =>
    simp [hw] at h
    obtain ⟨pos, h3, _⟩ := (getRef_spec s p).1 b hw
    simp [acctType, h3, h]

/-! ### dicts -/

theorem lookup_nil (k : Str) : lookup k [] = none := rfl

theorem lookup_cons (k k' : Str) (v : ℚ) (d : Dict Str) :
    lookup k ((k', v) :: d) = if k' = k then some v else lookup k d := by
  unfold lookup
  by_cases h : k' = k <;> simp [h]

theorem lookup_dictAdd (k k' : Str) (v : ℚ) (d : Dict Str) :
    lookup k (dictAdd k' v d) = if k = k' then some ((lookup k d).getD 0 + v) else lookup k d := by
  induction d with
  | nil =>
    simp only [dictAdd, lookup_cons, lookup_nil]
    by_cases h : k = k'
    · simp [h]
    · rw [if_neg (fun e => h e.symm), if_neg h]
  | cons e d ih =>
    obtain ⟨a, w⟩ := e
    simp only [dictAdd]
    split
    · rename_i h; subst h
      simp only [lookup_cons]
      by_cases h : a = k
      · simp [h]
      · have h' : ¬ k = a := fun e => h e.symm
        simp [h, h']
    · rename_i h
      simp only [lookup_cons, ih]
      by_cases h' : a = k
      · subst h'; simp [h]
      · simp [h']

theorem dictSum_dictAdd (k : Str) (v : ℚ) (d : Dict Str) : dictSum (dictAdd k v d) = dictSum d + v := by
  induction d with
  | nil => simp [dictAdd, dictSum]
  | cons e d ih =>
    obtain ⟨a, w⟩ := e
    simp only [dictAdd]
    split
    · simp [dictSum]; ring
    · simp only [dictSum, List.map_cons, List.sum_cons] at ih ⊢
      rw [ih]; ring

theorem keys_dictAdd (k : Str) (v : ℚ) (d : Dict Str) :
    (dictAdd k v d).map (·.1) = if k ∈ d.map (·.1) then d.map (·.1) else d.map (·.1) ++ [k] := by
  induction d with
  | nil => simp [dictAdd]
  | cons e d ih =>
    obtain ⟨a, w⟩ := e
    simp only [dictAdd]
    split
    · rename_i h; subst h; simp
    · rename_i h
      simp only [List.map_cons, ih, List.mem_cons]
      have h' : ¬ k = a := fun e => h e.symm
      by_cases hm : k ∈ d.map (·.1)
      · rw [if_pos hm, if_pos (Or.inr hm)]
      · rw [if_neg hm, if_neg (by simp [h', hm])]; rfl

theorem nodup_dictAdd (k : Str) (v : ℚ) (d : Dict Str) (h : (d.map (·.1)).Nodup) : ((dictAdd k v d).map (·.1)).Nodup := by
  rw [keys_dictAdd]
  split
  · exact h
  · rename_i hm
    rw [List.nodup_append]
    refine ⟨h, by simp, ?_⟩
    intro a ha b hb hab
    simp at hb; subst hb; subst hab; exact hm ha

theorem lookup_dictUpd (k k' : Str) (v w : ℚ) (d : Dict Str) :
    lookup k (dictUpd k' v w d) = if k = k' then some (match lookup k d with | some x => x + v | none => w) else lookup k d := by
  induction d with
  | nil =>
    simp only [dictUpd, lookup_cons, lookup_nil]
    by_cases h : k = k'
    · simp [h]
    · rw [if_neg (fun e => h e.symm), if_neg h]
  | cons e d ih =>
    obtain ⟨a, x⟩ := e
    simp only [dictUpd]
    split
    · rename_i h; subst h
      simp only [lookup_cons]
      by_cases h : a = k
      · simp [h]
      · have h' : ¬ k = a := fun e => h e.symm
        simp [h, h']
    · rename_i h
      simp only [lookup_cons, ih]
      by_cases h' : a = k
      · subst h'; simp [h]
      · simp [h']

/-! ### the balance sheet loop -/

theorem upTo_cons (stop : When) (t : RTx) (ts : List RTx) :
    upTo stop (t :: ts) = if notAfter t.date stop then t :: upTo stop ts else upTo stop ts := by
  simp [upTo, List.filter_cons]

theorem le_notAfter {a b : When} {r : Bool} (h : a.le b = .ok r) : notAfter a b = r := by
  cases a <;> cases b <;> simp [When.le] at h <;> simp [notAfter, h]

/-- state of one dict after a list of transactions: `sgn` is the effect of a credit -/
structure DictInv (s : Structure) (ty : AccountType) (sgn : ℚ) (d d' : Dict Str) (txs : List RTx) : Prop where
  sum : dictSum d' = dictSum d + sgn * netCreditOf s (fun x => x = ty) txs
  get : ∀ p, (typeOf s p ≠ some ty → lookup p d' = lookup p d) ∧
    (typeOf s p = some ty → (Touched p txs → lookup p d' = some ((lookup p d).getD 0 + sgn * netCredit p txs)) ∧
      (¬ Touched p txs → lookup p d' = lookup p d))
  nodup : (d.map (·.1)).Nodup → (d'.map (·.1)).Nodup

theorem dictInv_nil (s : Structure) (ty : AccountType) (sgn : ℚ) (d : Dict Str) : DictInv s ty sgn d d [] :=
  ⟨by simp [netCreditOf], fun p => ⟨fun _ => rfl, fun _ => ⟨fun h => by simp [Touched] at h, fun _ => rfl⟩⟩, id⟩

theorem touched_cons (p : Str) (t : RTx) (ts : List RTx) :
    Touched p (t :: ts) ↔ (t.cr = some p ∨ t.dt = some p) ∨ Touched p ts := by
  simp [Touched]

theorem netCredit_cons (p : Str) (t : RTx) (ts : List RTx) : netCredit p (t :: ts) =
    (if t.cr = some p then t.amount else 0) - (if t.dt = some p then t.amount else 0) + netCredit p ts := by
  simp [netCredit]

theorem netCreditOf_cons (s : Structure) (P : AccountType → Bool) (t : RTx) (ts : List RTx) : netCreditOf s P (t :: ts) =
    (if (typeOf? s t.cr).any P then t.amount else 0) - (if (typeOf? s t.dt).any P then t.amount else 0) + netCreditOf s P ts := by
  simp [netCreditOf]

theorem netCredit_untouched {p : Str} {ts : List RTx} (h : ¬ Touched p ts) : netCredit p ts = 0 := by
  induction ts with
  | nil => rfl
  | cons t ts ih =>
    rw [touched_cons] at h
    push Not at h
    rw [netCredit_cons, if_neg h.1.1, if_neg h.1.2, ih h.2]; ring

/-- What one transaction does to the dict of type `ty`. -/
def step1 (ty : AccountType) (sgn : ℚ) (cty dty : AccountType) (c dd : Str) (v : ℚ) (d : Dict Str) : Dict Str :=
  let d1 := if cty = ty then dictAdd c (sgn * v) d else d
  if dty = ty then dictAdd dd (-(sgn * v)) d1 else d1

theorem dictInv_step {s : Structure} {ty : AccountType} {sgn : ℚ} {d d' : Dict Str} {t : RTx} {ts : List RTx}
    {c dd : Str} {cty dty : AccountType} (hc : t.cr = some c) (hd : t.dt = some dd)
    (hct : typeOf s c = some cty) (hdt : typeOf s dd = some dty)
    (h : DictInv s ty sgn (step1 ty sgn cty dty c dd t.amount d) d' ts) : DictInv s ty sgn d d' (t :: ts) := by
  obtain ⟨h1, h2, h3⟩ := h
  refine ⟨?_, ?_, ?_⟩
  · rw [h1, netCreditOf_cons, hc, hd]
    simp only [typeOf?, hct, hdt, Option.any_some, decide_eq_true_eq, step1]
    split <;> split <;> (try simp only [dictSum_dictAdd]) <;> ring
  · intro p
    obtain ⟨g1, g2⟩ := h2 p
    have hl : lookup p (step1 ty sgn cty dty c dd t.amount d) =
        if typeOf s p = some ty ∧ (t.cr = some p ∨ t.dt = some p) then
          some ((lookup p d).getD 0 + sgn * ((if t.cr = some p then t.amount else 0) - (if t.dt = some p then t.amount else 0)))
        else lookup p d := by
      simp only [hc, hd, Option.some.injEq, step1]
      by_cases e1 : c = p
      · subst e1
        by_cases e2 : dd = c
        · subst e2
          have : cty = dty := by rw [hct] at hdt; exact Option.some.inj hdt
          subst this
          by_cases e3 : cty = ty
          · subst e3; simp [lookup_dictAdd, hct]
          · simp [e3, hct]
        · have e2' : ¬ c = dd := fun e => e2 e.symm
          by_cases e3 : cty = ty
          · subst e3
            by_cases e4 : dty = cty
            · simp [lookup_dictAdd, hct, e2, e2', e4]
            · simp [lookup_dictAdd, hct, e2, e4]
          · by_cases e4 : dty = ty
            · simp [lookup_dictAdd, hct, e2', e3, e4]
            · simp [hct, e3, e4]
      · have e1' : ¬ p = c := fun e => e1 e.symm
        by_cases e2 : dd = p
        · subst e2
          by_cases e4 : dty = ty
          · subst e4
            by_cases e3 : cty = dty
            · simp [lookup_dictAdd, hdt, e1, e1', e3]
            · simp [lookup_dictAdd, hdt, e1, e3]
          · by_cases e3 : cty = ty
            · simp [lookup_dictAdd, hdt, e1', e3, e4]
            · simp [hdt, e3, e4]
        · have e2' : ¬ p = dd := fun e => e2 e.symm
          by_cases e3 : cty = ty <;> by_cases e4 : dty = ty <;> simp [lookup_dictAdd, e1, e1', e2, e2', e3, e4]
    constructor
    · intro hp
      rw [g1 hp, hl, if_neg (fun h => hp h.1)]
    · intro hp
      obtain ⟨k1, k2⟩ := g2 hp
      rw [touched_cons, netCredit_cons]
      by_cases ht : t.cr = some p ∨ t.dt = some p
      · refine ⟨fun _ => ?_, fun hn => absurd (Or.inl ht) hn⟩
        rw [if_pos ⟨hp, ht⟩] at hl
        by_cases hts : Touched p ts
        · rw [k1 hts, hl]; simp only [Option.getD_some]; congr 1; ring
        · rw [k2 hts, hl, netCredit_untouched hts]; congr 1; ring
      · rw [if_neg (fun h => ht h.2)] at hl
        refine ⟨fun h => ?_, fun hn => ?_⟩
        · have hts := h.resolve_left ht
          push Not at ht
          rw [k1 hts, hl, if_neg ht.1, if_neg ht.2]; congr 1; ring
        · rw [k2 (fun h => hn (Or.inr h)), hl]
  · intro hn
    apply h3
    unfold step1
    split <;> split <;> simp only [nodup_dictAdd, hn]

theorem sheet_inv {s : Structure} {stop : When} : ∀ (txs : List RTx) (b b' : Sheet), sheetLoop s stop b txs = .ok b' →
    DictInv s .asset (-1) b.assets b'.assets (upTo stop txs) ∧
    DictInv s .liability 1 b.liabilities b'.liabilities (upTo stop txs) ∧
    DictInv s .equity 1 b.equity b'.equity (upTo stop txs) ∧
    ∀ t ∈ upTo stop txs, ∃ c d, t.cr = some c ∧ t.dt = some d ∧ (typeOf s c).isSome ∧ (typeOf s d).isSome := by
  intro txs
  induction txs with
  | nil =>
    intro b b' h
    simp only [sheetLoop, Except.ok.injEq] at h; subst h
    exact ⟨dictInv_nil _ _ _ _, dictInv_nil _ _ _ _, dictInv_nil _ _ _ _, by simp [upTo]⟩
  | cons t ts ih =>
    intro b b' h
    simp only [sheetLoop] at h
    split at h
    · cases h
    · rename_i hle
      rw [upTo_cons, le_notAfter hle]
      exact ih b b' h
    · rename_i hle
      split at h
      · cases h
      · rename_i cty hcty
        split at h
        · cases h
        · rename_i dty hdty
          rw [upTo_cons, le_notAfter hle]
          obtain ⟨c, hc, hct⟩ := acctType_some hcty
          obtain ⟨d, hd, hdt⟩ := acctType_some hdty
          obtain ⟨i1, i2, i3, i4⟩ := ih _ b' h
          rw [hc, hd] at i1 i2 i3
          simp only [Option.getD_some] at i1 i2 i3
          refine ⟨dictInv_step hc hd hct hdt ?_, dictInv_step hc hd hct hdt ?_, dictInv_step hc hd hct hdt ?_, ?_⟩
          · convert i1 using 1
            cases cty <;> cases dty <;> simp [Sheet.credit, Sheet.debit, step1]
          · convert i2 using 1
            cases cty <;> cases dty <;> simp [Sheet.credit, Sheet.debit, step1]
          · convert i3 using 1
            cases cty <;> cases dty <;> simp [Sheet.credit, Sheet.debit, step1]
          · intro x hx
            simp only [if_true, List.mem_cons] at hx
            rcases hx with rfl | hx
            · exact ⟨c, d, hc, hd, by simp [hct], by simp [hdt]⟩
            · exact i4 x hx

theorem netCreditOf_split {s : Structure} {txs : List RTx}
    (h : ∀ t ∈ txs, ∃ c d, t.cr = some c ∧ t.dt = some d ∧ (typeOf s c).isSome ∧ (typeOf s d).isSome) :
    netCreditOf s (fun x => x = .asset) txs + netCreditOf s (fun x => x = .liability) txs +
      netCreditOf s (fun x => x = .equity) txs + netCreditOf s isIncome txs = 0 := by
  induction txs with
  | nil => simp [netCreditOf]
  | cons t ts ih =>
    obtain ⟨c, d, hc, hd, h1, h2⟩ := h t (by simp)
    have := ih (fun x hx => h x (by simp [hx]))
    obtain ⟨ct, hct⟩ := Option.isSome_iff_exists.1 h1
    obtain ⟨dt, hdt⟩ := Option.isSome_iff_exists.1 h2
    simp only [netCreditOf_cons, hc, hd, typeOf?, hct, hdt, Option.any_some]
    cases ct <;> cases dt <;> simp [isIncome] <;> linarith

/-- success of the loop -/
theorem sheetLoop_ok {s : Structure} {stop : When} : ∀ (txs : List RTx) (b : Sheet),
    (∀ t ∈ txs, t.date.isDate = stop.isDate) →
    (∀ t ∈ upTo stop txs, ∃ c d, t.cr = some c ∧ t.dt = some d ∧ (typeOf s c).isSome ∧ (typeOf s d).isSome) →
    ∃ b', sheetLoop s stop b txs = .ok b' := by
  intro txs
  induction txs with
  | nil => intro b _ _; exact ⟨b, rfl⟩
  | cons t ts ih =>
    intro b hk ha
    have hle : t.date.le stop = .ok (notAfter t.date stop) := by
      have := hk t (by simp)
      cases h1 : t.date <;> cases h2 : stop <;> simp [h1, h2, When.isDate] at this <;> simp [When.le, notAfter]
    have hrest := fun x hx => hk x (List.mem_cons_of_mem t hx)
    simp only [sheetLoop, hle]
    rw [upTo_cons] at ha
    cases hn : notAfter t.date stop with
    | false => rw [hn] at ha; exact ih b hrest ha
    | true =>
      rw [hn] at ha
      obtain ⟨c, d, hc, hd, h1, h2⟩ := ha t (by simp)
      obtain ⟨ct, hct⟩ := Option.isSome_iff_exists.1 h1
      obtain ⟨dt, hdt⟩ := Option.isSome_iff_exists.1 h2
      simp only [hc, hd, acctType_of_typeOf hct, acctType_of_typeOf hdt]
      exact ih _ hrest (fun x hx => ha x (by simp [hx]))

/-! ### the balance sheet table -/

theorem setCell_range (n ix col : Nat) (v : Cell) (f : Nat → List Cell) (h : ix < n) (hc : col < 5) :
    setCell ix col v ((List.range n).map f) = .ok ((List.range n).map (fun j => if j = ix then (f j).set col v else f j)) := by
  unfold setCell
  rw [if_pos ⟨by simpa using h, hc⟩]
  congr 1
  apply List.ext_getElem?
  intro i
  rw [List.getElem?_modify]
  simp only [List.getElem?_map]
  by_cases hi : i < n
  · rw [List.getElem?_range hi]
    simp only [Option.map_some]
    by_cases he : ix = i
    · subst he; simp
    · have h' : ¬ i = ix := fun e => he e.symm
      simp [he, h']
  · rw [List.getElem?_eq_none (by simpa using hi)]; simp

theorem putEntries_range (n c1 c2 : Nat) (hc1 : c1 < 5) (hc2 : c2 < 5) : ∀ (d : Dict Str) (ix : Nat) (f : Nat → List Cell),
    ix + d.length ≤ n →
    putEntries c1 c2 d ix ((List.range n).map f) = .ok (ix + d.length, (List.range n).map (fun j =>
      if ix ≤ j then (match d[j - ix]? with
        | some e => ((f j).set c1 (.text e.1)).set c2 (.money e.2)
        | none => f j) else f j)) := by
  intro d
  induction d with
  | nil =>
    intro ix f _
    simp [putEntries]
  | cons e d ih =>
    intro ix f h
    obtain ⟨k, v⟩ := e
    simp only [List.length_cons] at h
    simp only [putEntries]
    rw [setCell_range n ix c1 _ f (by omega) hc1]
    simp only [bind, Except.bind]
    rw [setCell_range n ix c2 _ _ (by omega) hc2]
    simp only
    rw [ih (ix + 1) _ (by omega)]
    simp only [List.length_cons, Except.ok.injEq, Prod.mk.injEq]
    refine ⟨by omega, ?_⟩
    apply List.map_congr_left
    intro j _
    by_cases h1 : ix = j
    · subst h1; simp
    · by_cases h2 : ix ≤ j
      · have h3 : ix + 1 ≤ j := by omega
        have h4 : j - ix = (j - (ix + 1)) + 1 := by omega
        have h5 : ¬ j = ix := by omega
        simp only [h2, h3, if_true, h4, List.getElem?_cons_succ, h5, if_false]
      · have h3 : ¬ ix + 1 ≤ j := by omega
        have h5 : ¬ j = ix := by omega
        simp [h2, h3, h5]

theorem rightPart_length (b : Sheet) : (rightPart b).length = b.liabilities.length + b.equity.length + 7 := by
  simp [rightPart]; omega

theorem sheetTable_eq (b : Sheet) : sheetTable b = .ok (
    [tx "Assets", tx " ", tx "Liabilities and Equity", tx "", tx "  "] :: sideBySide (leftPart b) (rightPart b) ++
    [[tx "-----", tx "--------", tx "----------------------", tx "", tx "--------"],
     [tx "Total", .money (dictSum b.assets), tx "Total", tx "", .money (dictSum b.liabilities + dictSum b.equity)]]) := by
  unfold sheetTable sideBySide
  set A := b.assets.length with hA
  set L := b.liabilities.length with hL
  set E := b.equity.length with hE
  have hn : max (leftPart b).length (rightPart b).length = max A (L + E + 4 + 3) := by
    rw [rightPart_length, leftPart, List.length_map]; 
  rw [hn]
  set n := max A (L + E + 4 + 3) with hnn
  have hnA : A ≤ n := le_max_left _ _
  have hnR : L + E + 4 + 3 ≤ n := le_max_right _ _
  have hr : List.replicate n [tx "", tx "", tx "", tx "", tx ""] =
      (List.range n).map (fun _ => [tx "", tx "", tx "", tx "", tx ""]) := by
    simp
  simp only [hr]
  rw [putEntries_range n 0 1 (by omega) (by omega) _ _ _ (by omega)]
  simp only [bind, Except.bind]
  rw [setCell_range _ _ _ _ _ (by omega) (by omega)]; simp only
  rw [setCell_range _ _ _ _ _ (by omega) (by omega)]; simp only
  rw [putEntries_range n 2 3 (by omega) (by omega) _ _ _ (by omega)]; simp only
  rw [setCell_range _ _ _ _ _ (by omega) (by omega)]; simp only
  rw [setCell_range _ _ _ _ _ (by omega) (by omega)]; simp only
  rw [setCell_range _ _ _ _ _ (by omega) (by omega)]; simp only
  rw [setCell_range _ _ _ _ _ (by omega) (by omega)]; simp only
  rw [setCell_range _ _ _ _ _ (by omega) (by omega)]; simp only
  rw [putEntries_range n 2 3 (by omega) (by omega) _ _ _ (by omega)]; simp only
  rw [setCell_range _ _ _ _ _ (by omega) (by omega)]; simp only
  rw [setCell_range _ _ _ _ _ (by omega) (by omega)]; simp only
  simp only [pure, Except.pure, Except.ok.injEq]
  congr 2
  apply List.map_congr_left
  intro i _
  simp only [← hL, ← hE, Nat.zero_le, if_true, Nat.sub_zero]
  have hleft : (leftPart b)[i]? = b.assets[i]?.map (fun e => (Cell.text e.1, Cell.money e.2)) := by simp [leftPart]
  rw [hleft]
  -- the right part at index i
  have hright : (rightPart b)[i]? =
      if i = 0 then some (tx "Liabilities", tx "", tx "") else if i = 1 then some (tx "-----------", tx "", tx "")
      else if i < 2 + L then b.liabilities[i - 2]?.map (fun e => (Cell.text e.1, Cell.money e.2, tx ""))
      else if i = 2 + L then some (tx "Total liabilities", tx "", .money (dictSum b.liabilities))
      else if i = 2 + L + 1 then some (tx "-----------------", tx "", tx "")
      else if i = 2 + L + 2 then some (tx "Owners' Equity", tx "", tx "")
      else if i = 2 + L + 3 then some (tx "--------------", tx "", tx "")
      else if i < 2 + L + 4 + E then b.equity[i - (2 + L + 4)]?.map (fun e => (Cell.text e.1, Cell.money e.2, tx ""))
      else if i = 2 + L + 4 + E then some (tx "Total owners' equities", tx "", .money (dictSum b.equity)) else none := by
    unfold rightPart
    rcases i with _ | _ | i
    · simp
    · simp
    · simp only [List.append_assoc]
      rw [List.cons_append, List.cons_append, List.getElem?_cons_succ, List.getElem?_cons_succ, List.nil_append]
      rw [if_neg (by omega), if_neg (by omega)]
      by_cases c1 : i < L
      · rw [if_pos (by omega), List.getElem?_append_left (by simpa using c1)]
        simp
      · rw [if_neg (by omega), List.getElem?_append_right (by simpa using c1)]
        simp only [List.length_map, ← hL]
        obtain ⟨k, rfl⟩ : ∃ k, i = L + k := ⟨i - L, by omega⟩
        have hk : L + k - L = k := by omega
        rw [hk]
        rcases k with _ | _ | _ | _ | k
        · rw [if_pos (by omega)]; rfl
        · rw [if_neg (by omega), if_pos (by omega)]; rfl
        · rw [if_neg (by omega), if_neg (by omega), if_pos (by omega)]; rfl
        · rw [if_neg (by omega), if_neg (by omega), if_neg (by omega), if_pos (by omega)]; rfl
        · rw [if_neg (by omega), if_neg (by omega), if_neg (by omega), if_neg (by omega)]
          simp only [List.cons_append, List.nil_append, List.getElem?_cons_succ]
          by_cases c2 : k < E
          · rw [if_pos (by omega), List.getElem?_append_left (by simpa using c2)]
            have : L + (k + 1 + 1 + 1 + 1) + 1 + 1 - (2 + L + 4) = k := by omega
            rw [this]; simp
          · rw [if_neg (by omega), List.getElem?_append_right (by simpa using c2)]
            simp only [List.length_map, ← hE]
            by_cases c3 : k = E
            · subst c3; rw [if_pos (by omega)]; simp
            · rw [if_neg (by omega), List.getElem?_eq_none (by simp; omega)]
  rw [hright]
  -- compare cell by cell
  have hbase : ∀ (x : Option (Str × ℚ)), (match x with
      | some e => (([tx "", tx "", tx "", tx "", tx ""] : List Cell).set 0 (.text e.1)).set 1 (.money e.2)
      | none => [tx "", tx "", tx "", tx "", tx ""]) =
      [((x.map (fun e => (Cell.text e.1, Cell.money e.2))).getD (tx "", tx "")).1,
       ((x.map (fun e => (Cell.text e.1, Cell.money e.2))).getD (tx "", tx "")).2, tx "", tx "", tx ""] := by
    intro x; cases x <;> rfl
  rw [hbase]
  generalize (b.assets[i]?.map (fun e => (Cell.text e.1, Cell.money e.2))).getD (tx "", tx "") = ab
  by_cases i0 : i = 0
  · subst i0
    have e1 : ¬ (2 ≤ 0) := by omega
    have e2 : ¬ (0 = 2 + L) := by omega
    have e3 : ¬ (0 = 2 + L + 1) := by omega
    have e4 : ¬ (0 = 2 + L + 2) := by omega
    have e5 : ¬ (0 = 2 + L + 3) := by omega
    have e6 : ¬ (2 + L + 4 ≤ 0) := by omega
    have e7 : ¬ (0 = 2 + L + 4 + E) := by omega
    simp [e2, e3, e4, e5, e6, e7]
  by_cases i1 : i = 1
  · subst i1
    have e2 : ¬ (1 = 2 + L) := by omega
    have e3 : ¬ (1 = 2 + L + 1) := by omega
    have e4 : ¬ (1 = 2 + L + 2) := by omega
    have e5 : ¬ (1 = 2 + L + 3) := by omega
    have e6 : ¬ (2 + L + 4 ≤ 1) := by omega
    have e7 : ¬ (1 = 2 + L + 4 + E) := by omega
    simp [e2, e3, e4, e5, e6, e7]
  have i2 : 2 ≤ i := by omega
  by_cases c1 : i < 2 + L
  · have e2 : ¬ (i = 2 + L) := by omega
    have e3 : ¬ (i = 2 + L + 1) := by omega
    have e4 : ¬ (i = 2 + L + 2) := by omega
    have e5 : ¬ (i = 2 + L + 3) := by omega
    have e6 : ¬ (2 + L + 4 ≤ i) := by omega
    have e7 : ¬ (i = 2 + L + 4 + E) := by omega
    have hlt : i - 2 < b.liabilities.length := by omega
    simp [i0, i1, i2, c1, e2, e3, e4, e5, e6, e7, List.getElem?_eq_getElem hlt]
  have hnone : b.liabilities[i - 2]? = none := List.getElem?_eq_none (by omega)
  by_cases c2 : i = 2 + L
  · have e3 : ¬ (i = 2 + L + 1) := by omega
    have e4 : ¬ (i = 2 + L + 2) := by omega
    have e5 : ¬ (i = 2 + L + 3) := by omega
    have e6 : ¬ (2 + L + 4 ≤ i) := by omega
    have e7 : ¬ (i = 2 + L + 4 + E) := by omega
    simp only [i0, i1, i2, c1, e3, e4, e5, e6, e7, hnone, if_true, if_false]
    simp [c2]
  by_cases c3 : i = 2 + L + 1
  · have e4 : ¬ (i = 2 + L + 2) := by omega
    have e5 : ¬ (i = 2 + L + 3) := by omega
    have e6 : ¬ (2 + L + 4 ≤ i) := by omega
    have e7 : ¬ (i = 2 + L + 4 + E) := by omega
    simp only [i0, i1, i2, c1, c2, e4, e5, e6, e7, hnone, if_true, if_false]
    simp [c3]
  by_cases c4 : i = 2 + L + 2
  · have e5 : ¬ (i = 2 + L + 3) := by omega
    have e6 : ¬ (2 + L + 4 ≤ i) := by omega
    have e7 : ¬ (i = 2 + L + 4 + E) := by omega
    simp only [i0, i1, i2, c1, c2, c3, e5, e6, e7, hnone, if_true, if_false]
    simp [c4]
  by_cases c5 : i = 2 + L + 3
  · have e6 : ¬ (2 + L + 4 ≤ i) := by omega
    have e7 : ¬ (i = 2 + L + 4 + E) := by omega
    simp only [i0, i1, i2, c1, c2, c3, c4, e6, e7, hnone, if_true, if_false]
    simp [c5]
  have c6 : 2 + L + 4 ≤ i := by omega
  by_cases c7 : i < 2 + L + 4 + E
  · have e7 : ¬ (i = 2 + L + 4 + E) := by omega
    have hlt : i - (2 + L + 4) < b.equity.length := by omega
    simp [i0, i1, i2, c1, c2, c3, c4, c5, c6, c7, e7, hnone, List.getElem?_eq_getElem hlt]
  have hnone2 : b.equity[i - (2 + L + 4)]? = none := List.getElem?_eq_none (by omega)
  by_cases c8 : i = 2 + L + 4 + E
  · simp only [i0, i1, i2, c1, c2, c3, c4, c5, c6, c7, hnone, hnone2, if_true, if_false]
    simp [c8]
  · simp [i0, i1, i2, c1, c2, c3, c4, c5, c6, c7, c8, hnone, hnone2]

end Auxi.Reports
