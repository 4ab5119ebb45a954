import Verif.Proofs.Reports

namespace Auxi.Reports
open Spec Ledger Business

/-! ### transaction list -/

theorem within_ok {start stop d : When} {r : Bool} (h : within start stop d = .ok r) :
    (notAfter start d && notAfter d stop) = r := by
  unfold within at h
  cases h1 : start.le d with
  | error e => rw [h1] at h; cases h
  | ok x =>
    rw [h1] at h
    simp only [bind, Except.bind] at h
    rw [le_notAfter h1]
    cases x with
    | true => simp only [if_true] at h; rw [le_notAfter h]; rfl
    | false => simp [pure, Except.pure] at h; simp [h]

theorem within_total {start stop d : When} (h1 : d.isDate = start.isDate) (h2 : d.isDate = stop.isDate) :
    within start stop d = .ok (notAfter start d && notAfter d stop) := by
  cases d <;> cases start <;> simp [When.isDate] at h1 <;> cases stop <;> simp [When.isDate] at h2 <;>
    simp only [within, When.le, notAfter, bind, Except.bind, pure, Except.pure, decide_eq_true_eq] <;>
    split <;> simp_all

theorem txRows_ok {comp : Str} {start stop : When} : ∀ (l : List RTx) (rows : Table) (tot : ℚ),
    txRows comp start stop l = .ok (rows, tot) →
    rows = (l.filter (selected comp start stop)).map (fun t => txRow t (t.source.getD [])) ∧
    tot = ((l.filter (selected comp start stop)).map RTx.amount).sum := by
  intro l
  induction l with
  | nil => intro rows tot h; simp [txRows] at h; simp [h]
  | cons t ts ih =>
    intro rows tot h
    simp only [txRows] at h
    split at h
    · cases h
    · rename_i s hs
      split at h
      · rename_i hp
        split at h
        · cases h
        · rename_i hw
          have hw := within_ok hw
          have hsel : selected comp start stop t = true := by
            simp only [selected, hs, hp, Bool.true_and]; exact hw
          split at h
          · cases h
          · rename_i r tt hr
            simp only [Except.ok.injEq, Prod.mk.injEq] at h
            obtain ⟨h1, h2⟩ := ih _ _ hr
            simp only [List.filter_cons, hsel, if_true, List.map_cons, List.sum_cons, hs, Option.getD_some]
            exact ⟨by rw [← h.1, h1], by rw [← h.2, h2]⟩
        · rename_i hw
          have hw := within_ok hw
          have hsel : selected comp start stop t = false := by
            simp only [selected, hs, hp, Bool.true_and]; exact hw
          simp only [List.filter_cons, hsel]
          exact ih _ _ h
      · rename_i hp
        have hsel : selected comp start stop t = false := by
          simp [selected, hs, hp]
        simp only [List.filter_cons, hsel]
        exact ih _ _ h

theorem txRows_total {comp : Str} {start stop : When} : ∀ (l : List RTx),
    (∀ t ∈ l, t.source.isSome ∧ t.date.isDate = start.isDate ∧ t.date.isDate = stop.isDate) →
    ∃ r, txRows comp start stop l = .ok r := by
  intro l
  induction l with
  | nil => intro _; exact ⟨_, rfl⟩
  | cons t ts ih =>
    intro h
    obtain ⟨h1, h2, h3⟩ := h t (by simp)
    obtain ⟨s, hs⟩ := Option.isSome_iff_exists.1 h1
    obtain ⟨⟨r1, r2⟩, hr⟩ := ih (fun x hx => h x (by simp [hx]))
    simp only [txRows, hs, within_total h2 h3, hr]
    split
    · cases (notAfter start t.date && notAfter t.date stop) <;> exact ⟨_, rfl⟩
    · exact ⟨_, rfl⟩

instance : IsTrans RTx (fun a b => a.date.key ≤ b.date.key) := ⟨fun _ _ _ h1 h2 => le_trans h1 h2⟩
instance : Std.Total (fun (a b : RTx) => a.date.key ≤ b.date.key) := ⟨fun a b => le_total a.date.key b.date.key⟩

theorem filter_sort (l : List RTx) (k : Int) :
    (l.insertionSort (fun a b => a.date.key ≤ b.date.key)).filter (fun t => t.date.key = k) =
      l.filter (fun t => t.date.key = k) := by
  set r := fun (a b : RTx) => a.date.key ≤ b.date.key
  have h1 : (l.filter (fun t => t.date.key = k)).Pairwise r := by
    rw [List.pairwise_filter]
    refine List.pairwise_of_forall ?_
    intro a b ha hb
    simp only [decide_eq_true_eq] at ha hb
    show a.date.key ≤ b.date.key
    omega
  have h2 := List.sublist_insertionSort (r := r) h1 List.filter_sublist
  have h3 := h2.filter (fun t : RTx => decide (t.date.key = k))
  rw [List.filter_filter] at h3
  simp only [Bool.and_self] at h3
  refine (h3.eq_of_length ?_).symm
  exact (((List.perm_insertionSort r l).filter _).length_eq).symm

/-! ### income statement -/

theorem dictUpd_eq_add {k : Str} {v w : ℚ} {d : Dict Str} (h : lookup k d ≠ none ∨ v = w) : dictUpd k v w d = dictAdd k v d := by
  induction d with
  | nil =>
    rcases h with h | h
    · exact absurd rfl h
    · simp [dictUpd, dictAdd, h]
  | cons e d ih =>
    obtain ⟨a, x⟩ := e
    simp only [dictUpd, dictAdd]
    split
    · rfl
    · rename_i hne
      rw [ih]
      rw [lookup_cons, if_neg hne] at h
      exact h

/-- What one ordinary transaction does to the dict of type `ty`. -/
def incStep (ty : AccountType) (sgn : ℚ) (cty dty : AccountType) (c dd : Str) (v : ℚ) (d : Dict Str) : Dict Str :=
  let d1 := if cty = ty then dictUpd c (sgn * v) v d else d
  if dty = ty then dictUpd dd (-(sgn * v)) v d1 else d1

/-- the dict after a list of transactions, as a fold -/
def incFold (s : Structure) (ty : AccountType) (sgn : ℚ) (d : Dict Str) : List RTx → Dict Str
  | [] => d
  | t :: ts => match t.cr, t.dt with
    | some c, some dd => match typeOf s c, typeOf s dd with
      | some cty, some dty => incFold s ty sgn (incStep ty sgn cty dty c dd t.amount d) ts
      | _, _ => incFold s ty sgn d ts
    | _, _ => incFold s ty sgn d ts

/-- the transactions that count for an income statement -/
def counted (comp : Str) (start stop : When) (txs : List RTx) : List RTx :=
  txs.filter (fun t => selected comp start stop t && ordinary t)

theorem income_fold {s : Structure} {comp : Str} {start stop : When} (hs : typeOf s [] = none) :
    ∀ (txs : List RTx) (b b' : Income), incomeLoop s comp start stop b txs = .ok b' →
    b'.income = incFold s .revenue 1 b.income (counted comp start stop txs) ∧
    b'.expenses = incFold s .expense (-1) b.expenses (counted comp start stop txs) ∧
    ∀ t ∈ txs.filter (selected comp start stop), ∃ c d, t.cr = some c ∧ t.dt = some d ∧ (typeOf s c).isSome ∧ (typeOf s d).isSome := by
  intro txs
  induction txs with
  | nil => intro b b' h; simp [incomeLoop] at h; subst h; simp [counted, incFold]
  | cons t ts ih =>
    intro b b' h
    simp only [incomeLoop] at h
    split at h
    · cases h
    · rename_i src hsrc
      split at h
      · rename_i hp
        split at h
        · cases h
        · rename_i hw
          have hsel : selected comp start stop t = false := by
            simp only [selected, hsrc, hp, Bool.true_and]; exact within_ok hw
          have := ih b b' h
          simpa [counted, List.filter_cons, hsel] using this
        · rename_i hw
          have hsel : selected comp start stop t = true := by
            simp only [selected, hsrc, hp, Bool.true_and]; exact within_ok hw
          split at h
          · cases h
          · rename_i cty hcty
            split at h
            · cases h
            · rename_i dty hdty
              obtain ⟨c, hc, hct⟩ := acctType_some hcty
              obtain ⟨d, hd, hdt⟩ := acctType_some hdty
              have hc0 : c ≠ [] := by rintro rfl; rw [hs] at hct; cases hct
              have hd0 : d ≠ [] := by rintro rfl; rw [hs] at hdt; cases hdt
              obtain ⟨i1, i2, i3⟩ := ih _ b' h
              refine ⟨?_, ?_, ?_⟩
              · rw [i1]
                by_cases ho : ordinary t = true
                · have : counted comp start stop (t :: ts) = t :: counted comp start stop ts := by
                    simp [counted, List.filter_cons, hsel, ho]
                  rw [this]
                  simp only [incFold, hc, hd, hct, hdt]
                  congr 1
                  simp only [ordinary, Bool.and_eq_true, Bool.not_eq_true'] at ho
                  simp only [Income.add, ho, hc, hd, Option.some.injEq, Ne, hc0, hd0, not_false_eq_true, and_self, if_true, Option.getD_some]
                  cases cty <;> cases dty <;> simp [Income.credit, Income.debit, incStep]
                · have : counted comp start stop (t :: ts) = counted comp start stop ts := by
                    simp [counted, List.filter_cons, ho]
                  rw [this]
                  congr 1
                  have h1 : ¬ (t.closingCr = false ∧ t.closingDt = false ∧ t.cr ≠ some []) := by
                    intro ⟨a, b, _⟩; exact ho (by simp [ordinary, a, b])
                  have h2 : ¬ (t.closingCr = false ∧ t.closingDt = false ∧ t.dt ≠ some []) := by
                    intro ⟨a, b, _⟩; exact ho (by simp [ordinary, a, b])
                  simp only [Income.add, if_neg h1, if_neg h2]
              · rw [i2]
                by_cases ho : ordinary t = true
                · have : counted comp start stop (t :: ts) = t :: counted comp start stop ts := by
                    simp [counted, List.filter_cons, hsel, ho]
                  rw [this]
                  simp only [incFold, hc, hd, hct, hdt]
                  congr 1
                  simp only [ordinary, Bool.and_eq_true, Bool.not_eq_true'] at ho
                  simp only [Income.add, ho, hc, hd, Option.some.injEq, Ne, hc0, hd0, not_false_eq_true, and_self, if_true, Option.getD_some]
                  cases cty <;> cases dty <;> simp [Income.credit, Income.debit, incStep]
                · have : counted comp start stop (t :: ts) = counted comp start stop ts := by
                    simp [counted, List.filter_cons, ho]
                  rw [this]
                  congr 1
                  have h1 : ¬ (t.closingCr = false ∧ t.closingDt = false ∧ t.cr ≠ some []) := by
                    intro ⟨a, b, _⟩; exact ho (by simp [ordinary, a, b])
                  have h2 : ¬ (t.closingCr = false ∧ t.closingDt = false ∧ t.dt ≠ some []) := by
                    intro ⟨a, b, _⟩; exact ho (by simp [ordinary, a, b])
                  simp only [Income.add, if_neg h1, if_neg h2]
              · intro x hx
                simp only [List.filter_cons, hsel, if_true, List.mem_cons] at hx
                rcases hx with rfl | hx
                · exact ⟨c, d, hc, hd, by simp [hct], by simp [hdt]⟩
                · exact i3 x hx
      · rename_i hp
        have hsel : selected comp start stop t = false := by simp [selected, hsrc, hp]
        have := ih b b' h
        simpa [counted, List.filter_cons, hsel] using this

/-- Accounts resolved by all transactions of a list. -/
def Resolved (s : Structure) (txs : List RTx) : Prop :=
  ∀ t ∈ txs, ∃ c d, t.cr = some c ∧ t.dt = some d ∧ (typeOf s c).isSome ∧ (typeOf s d).isSome

/-- Under the guard that first entries are on the normal side the fold is a plain sum. -/
theorem incFold_inv {s : Structure} {ty : AccountType} {sgn : ℚ} {side : Bool} (hside : sgn = if side then 1 else -1) :
    ∀ (txs : List RTx) (d : Dict Str), Resolved s txs →
    (∀ p, typeOf s p = some ty → lookup p d ≠ none ∨ firstOnSide side p txs) →
    DictInv s ty sgn d (incFold s ty sgn d txs) txs := by
  intro txs
  induction txs with
  | nil => intro d _ _; exact dictInv_nil _ _ _ _
  | cons t ts ih =>
    intro d hres hg
    obtain ⟨c, dd, hc, hd, h1, h2⟩ := hres t (by simp)
    obtain ⟨cty, hct⟩ := Option.isSome_iff_exists.1 h1
    obtain ⟨dty, hdt⟩ := Option.isSome_iff_exists.1 h2
    have hstep : incStep ty sgn cty dty c dd t.amount d = step1 ty sgn cty dty c dd t.amount d := by
      unfold incStep step1
      have e1 : (if cty = ty then dictUpd c (sgn * t.amount) t.amount d else d) =
          (if cty = ty then dictAdd c (sgn * t.amount) d else d) := by
        split
        · rename_i hty
          apply dictUpd_eq_add
          rcases hg c (by rw [hct, hty]) with h | h
          · exact Or.inl h
          · right
            simp only [firstOnSide, List.find?_cons, hc, Option.some.injEq, true_or, decide_true] at h
            cases side
            · simp at h
            · simp [hside]
        · rfl
      simp only
      rw [e1]
      generalize hd1 : (if cty = ty then dictAdd c (sgn * t.amount) d else d) = d1
      split
      · rename_i hty
        rw [← hd1]
        apply dictUpd_eq_add
        by_cases hcd : c = dd
        · left
          subst hcd
          have : cty = dty := by rw [hct] at hdt; exact Option.some.inj hdt
          rw [if_pos (by rw [this, hty]), lookup_dictAdd]; simp
        · rcases hg dd (by rw [hdt, hty]) with h | h
          · left
            split
            · rw [lookup_dictAdd, if_neg (fun e => hcd e.symm)]; exact h
            · exact h
          · right
            simp only [firstOnSide, List.find?_cons, hd, or_true, decide_true, hc, Option.some.injEq] at h
            cases side
            · simp [hside]
            · simp at h; exact absurd h hcd
      · rfl
    simp only [incFold, hc, hd, hct, hdt, hstep]
    refine dictInv_step hc hd hct hdt (ih _ (fun x hx => hres x (by simp [hx])) ?_)
    intro p hp
    by_cases ht : t.cr = some p ∨ t.dt = some p
    · left
      rw [hc, hd, Option.some.injEq, Option.some.injEq] at ht
      unfold step1
      rcases ht with ht | ht
      · subst ht
        have : cty = ty := by rw [hct] at hp; exact Option.some.inj hp
        subst this
        simp only [if_true]
        split
        · rw [lookup_dictAdd]; split
          · simp
          · rw [lookup_dictAdd]; simp
        · rw [lookup_dictAdd]; simp
      · subst ht
        have : dty = ty := by rw [hdt] at hp; exact Option.some.inj hp
        subst this
        simp only [if_true]
        rw [lookup_dictAdd]; simp
    · rcases hg p hp with h | h
      · left
        rw [hc, hd, Option.some.injEq, Option.some.injEq] at ht
        push Not at ht
        unfold step1
        have e1 : ¬ p = c := fun e => ht.1 e.symm
        have e2 : ¬ p = dd := fun e => ht.2 e.symm
        split <;> split <;> simpa [lookup_dictAdd, e1, e2] using h
      · right
        simpa [firstOnSide, List.find?_cons, ht] using h

/-- The amount of the first transaction touching the account, if that is on the wrong side. -/
def firstWrong (side : Bool) (p : Str) (txs : List RTx) : ℚ :=
  match txs.find? (fun t => t.cr = some p ∨ t.dt = some p) with
  | none => 0
  | some t => if (side = true ↔ t.cr = some p) then 0 else t.amount

/-- Exact content of the fold. -/
theorem incFold_exact {s : Structure} {ty : AccountType} {sgn : ℚ} {side : Bool} (hside : sgn = if side then 1 else -1) (p : Str)
    (hp : typeOf s p = some ty) : ∀ (txs : List RTx) (d : Dict Str), Resolved s txs →
    lookup p (incFold s ty sgn d txs) = match lookup p d with
      | some x => some (x + sgn * netCredit p txs)
      | none => if txs.any (fun t => t.cr = some p ∨ t.dt = some p) then some (sgn * netCredit p txs + 2 * firstWrong side p txs)
          else none := by
  intro txs
  induction txs with
  | nil => intro d _; simp only [incFold]; cases lookup p d <;> simp [netCredit]
  | cons t ts ih =>
    intro d hres
    obtain ⟨c, dd, hc, hd, h1, h2⟩ := hres t (by simp)
    obtain ⟨cty, hct⟩ := Option.isSome_iff_exists.1 h1
    obtain ⟨dty, hdt⟩ := Option.isSome_iff_exists.1 h2
    simp only [incFold, hc, hd, hct, hdt]
    rw [ih _ (fun x hx => hres x (by simp [hx]))]
    have hl : lookup p (incStep ty sgn cty dty c dd t.amount d) =
        if c = p ∨ dd = p then some ((match lookup p d with
          | some x => x
          | none => 2 * (if (side = true ↔ c = p) then 0 else t.amount)) +
            sgn * ((if c = p then t.amount else 0) - (if dd = p then t.amount else 0)))
        else lookup p d := by
      simp only [incStep]
      by_cases e1 : c = p
      · subst e1
        have hty : cty = ty := by rw [hct] at hp; exact Option.some.inj hp
        subst hty
        by_cases e2 : dd = c
        · subst e2
          have : dty = cty := by rw [hct] at hdt; exact (Option.some.inj hdt).symm
          subst this
          simp only [if_true, lookup_dictUpd, true_or]
          cases lookup dd d with
          | some x => simp
          | none => cases side <;> simp [hside]; ring
        · have e2' : ¬ c = dd := fun e => e2 e.symm
          have key : lookup c (dictUpd c (sgn * t.amount) t.amount d) = some ((match lookup c d with
              | some x => x
              | none => 2 * (if (side = true ↔ c = c) then 0 else t.amount)) + sgn * t.amount) := by
            rw [lookup_dictUpd]
            simp only [if_true]
            cases lookup c d with
            | some x => simp
            | none => cases side <;> simp [hside]; ring
          by_cases e4 : dty = cty
          · simp only [e4, if_true, lookup_dictUpd (k' := dd), e2', if_false, key, e2, true_or]; simp
          · simp only [e4, if_true, if_false, key, e2, true_or]; simp
      · have e1' : ¬ p = c := fun e => e1 e.symm
        have base : lookup p (if cty = ty then dictUpd c (sgn * t.amount) t.amount d else d) = lookup p d := by
          split
          · rw [lookup_dictUpd, if_neg e1']
          · rfl
        by_cases e2 : dd = p
        · subst e2
          have hty : dty = ty := by rw [hdt] at hp; exact Option.some.inj hp
          simp only [hty, if_true, lookup_dictUpd (k' := dd), base, e1, or_true, if_false]
          cases lookup dd d with
          | some x => simp
          | none => cases side <;> simp [hside]; ring
        · have e2' : ¬ p = dd := fun e => e2 e.symm
          simp only [e1, e2, or_self, if_false]
          split
          · rw [lookup_dictUpd, if_neg e2', base]
          · exact base
    rw [hl, netCredit_cons, hc, hd]
    simp only [Option.some.injEq]
    by_cases ht : c = p ∨ dd = p
    · rw [if_pos ht]
      have hany : (t :: ts).any (fun t => t.cr = some p ∨ t.dt = some p) = true := by
        simp [hc, hd, ht]
      have hfw : firstWrong side p (t :: ts) = if (side = true ↔ c = p) then 0 else t.amount := by
        simp [firstWrong, List.find?_cons, hc, hd, ht]
      rw [hany, hfw]
      cases lookup p d with
      | some x => simp only; congr 1; ring
      | none => simp only [if_true]; congr 1; ring
    · rw [if_neg ht]
      have hany : (t :: ts).any (fun t => t.cr = some p ∨ t.dt = some p) = ts.any (fun t => t.cr = some p ∨ t.dt = some p) := by
        simp [hc, hd, ht]
      have hfw : firstWrong side p (t :: ts) = firstWrong side p ts := by
        simp [firstWrong, List.find?_cons, hc, hd, ht]
      push Not at ht
      rw [hany, hfw, if_neg ht.1, if_neg ht.2]
      cases lookup p d with
      | some x => simp
      | none => simp

/-! ### chart of accounts -/

theorem strLe_total : ∀ a b : Str, strLe a b = true ∨ strLe b a = true
  | [], _ => Or.inl (by simp [strLe])
  | _ :: _, [] => Or.inr (by simp [strLe])
  | a :: x, b :: y => by
    simp only [strLe]
    by_cases h : a.toNat = b.toNat
    · simp only [h, if_true]; exact strLe_total x y
    · rw [if_neg h, if_neg (fun e => h e.symm)]
      simp only [decide_eq_true_eq]; omega

theorem strLe_trans : ∀ a b c : Str, strLe a b = true → strLe b c = true → strLe a c = true
  | [], _, _, _, _ => by simp [strLe]
  | _ :: _, [], _, h, _ => by simp [strLe] at h
  | _ :: _, _ :: _, [], _, h => by simp [strLe] at h
  | a :: x, b :: y, c :: z, h1, h2 => by
    simp only [strLe] at h1 h2 ⊢
    by_cases e1 : a.toNat = b.toNat
    · rw [if_pos e1] at h1
      by_cases e2 : b.toNat = c.toNat
      · rw [if_pos e2] at h2
        rw [if_pos (e1.trans e2)]
        exact strLe_trans x y z h1 h2
      · rw [if_neg e2] at h2
        rw [if_neg (by omega)]
        simp only [decide_eq_true_eq] at h2 ⊢; omega
    · rw [if_neg e1] at h1
      simp only [decide_eq_true_eq] at h1
      by_cases e2 : b.toNat = c.toNat
      · rw [if_neg (by omega)]; simp only [decide_eq_true_eq]; omega
      · rw [if_neg e2] at h2
        simp only [decide_eq_true_eq] at h2
        rw [if_neg (by omega)]; simp only [decide_eq_true_eq]; omega

instance {α : Type} : IsTrans (Str × α) (fun a b => strLe a.1 b.1 = true) := ⟨fun _ _ _ h1 h2 => strLe_trans _ _ _ h1 h2⟩
instance {α : Type} : Std.Total (fun (a b : Str × α) => strLe a.1 b.1 = true) := ⟨fun a b => strLe_total a.1 b.1⟩

theorem sortByNumber_perm {α : Type} (l : List (Str × α)) : (sortByNumber l).Perm l := List.perm_insertionSort _ l
theorem sortByNumber_sorted {α : Type} (l : List (Str × α)) : (sortByNumber l).Pairwise (fun a b => strLe a.1 b.1 = true) :=
  List.pairwise_insertionSort _ l

theorem typeName_eq (t : AccountType) : typeName t = kindText t := by cases t <;> rfl

theorem startsWith_eq (ch : Char) : startsWith ch = numberStarts ch := by
  funext a
  unfold startsWith numberStarts
  cases a.number with
  | none => simp
  | some l => cases l <;> simp [Bool.beq_eq_decide_eq]

mutual
theorem glRows_perm (pre : Str) : ∀ (a : Account) (t : Table), glRows pre a = .ok t → t.Perm (treeRows pre a)
  | ⟨_, _, none, _, _, _, _⟩, t, h => by simp [glRows] at h
  | ⟨n, d, some k, ty, _, _, cs⟩, t, h => by
    simp only [glRows] at h
    split at h
    · cases h
    · rename_i l hl
      simp only [Except.ok.injEq] at h; subst h
      simp only [treeRows, Option.getD_some, ← typeName_eq]
      refine List.Perm.cons _ ?_
      exact ((sortByNumber_perm l).flatMap_right _).trans (glChildren_perm (k ++ ['/']) cs l hl)
theorem glChildren_perm (pre : Str) : ∀ (cs : List Account) (l : List (Str × Table)), glChildren pre cs = .ok l →
    (l.flatMap (·.2)).Perm (forestRows pre cs)
  | [], l, h => by simp [glChildren] at h; subst h; simp [forestRows]
  | c :: cs, l, h => by
    simp only [glChildren] at h
    split at h
    · cases h
    · split at h
      · cases h
      · rename_i r hr
        split at h
        · cases h
        · rename_i l' hl'
          simp only [Except.ok.injEq] at h; subst h
          simp only [List.flatMap_cons, forestRows]
          exact (glRows_perm pre c r hr).append (glChildren_perm pre cs l' hl')
end

mutual
theorem glRows_ok (pre : Str) : ∀ (a : Account), (∃ t, glRows pre a = .ok t) ↔ numbered a = true
  | ⟨_, _, none, _, _, _, _⟩ => by simp [glRows, numbered]
  | ⟨n, d, some k, ty, _, _, cs⟩ => by
    simp only [glRows, numbered, Option.isSome_some, Bool.true_and]
    rw [← glChildren_ok (k ++ ['/']) cs]
    cases glChildren (k ++ ['/']) cs <;> simp
theorem glChildren_ok (pre : Str) : ∀ (cs : List Account), (∃ l, glChildren pre cs = .ok l) ↔ numberedAll cs = true
  | [] => by simp [glChildren, numberedAll]
  | c :: cs => by
    have h1 := glRows_ok pre c
    have h2 := glChildren_ok pre cs
    simp only [glChildren, numberedAll, Bool.and_eq_true, ← h1, ← h2]
    cases hc : c.number with
    | none =>
      have : glRows pre c = .error .typeError := by
        obtain ⟨n, d, num, ty, pp, p, ks⟩ := c
        simp only at hc; subst hc; simp [glRows]
      simp [this]
    | some k =>
      simp only
      cases glRows pre c <;> simp
      cases glChildren pre cs <;> simp
end

theorem glChildren_keys (pre : Str) : ∀ (cs : List Account) (l : List (Str × Table)), glChildren pre cs = .ok l →
    List.Forall₂ (fun a e => a.number = some e.1 ∧ glRows pre a = .ok e.2) cs l
  | [], l, h => by simp [glChildren] at h; subst h; exact .nil
  | c :: cs, l, h => by
    simp only [glChildren] at h
    split at h
    · cases h
    · rename_i k hk
      split at h
      · cases h
      · rename_i r hr
        split at h
        · cases h
        · rename_i l' hl'
          simp only [Except.ok.injEq] at h; subst h
          exact .cons ⟨hk, hr⟩ (glChildren_keys pre cs l' hl')

end Auxi.Reports
