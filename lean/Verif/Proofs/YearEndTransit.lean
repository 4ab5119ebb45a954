import Verif.Props.YearEnd

/-!
# Facts about the accounts a year end passes amounts through, and about when it raises
-/
namespace Auxi.Business
open Auxi.Business.Props Auxi.Business.Spec Ledger Time

/-- gross profit effect of a transaction -/
def tradEffect (c : Chart) (t : Tx) : ℚ :=
  (if TradingAcc c t.cr then t.amount else 0) - (if TradingAcc c t.dt then t.amount else 0)

theorem trading_of_optInc {c : Chart} (gc : GoodChart c) {p : Str} (h : optInc (ref c p) = false) : TradingAcc c p = false := by
  rw [gc.trading]
  cases hr : ref c p with
  | none => rfl
  | some r =>
    rw [hr] at h
    cases hh : r.trading with
    | false => simp [hh]
    | true => simp [optInc, trading_income hh] at h

theorem classify_gross {c : Chart} (gc : GoodChart c) {w w' : WriteOff} {t : Tx} (h : classify c w t = .ok w')
    (hg : ¬ (optInc (ref c t.cr) = true ∧ optInc (ref c t.dt) = true)) :
    dictSum w'.gross = dictSum w.gross + tradEffect c t := by
  unfold tradEffect
  rcases classify_cases h hg with ⟨k, h1, h2, h3, h4⟩ | ⟨k, h1, h2, h3, h4⟩ | ⟨k, h1, h2, h2', h3, h4⟩ | ⟨k, h1, h2, h2', h3, h4⟩ | ⟨h3, h1, h4⟩
  · have e : TradingAcc c t.cr = true := by rw [gc.trading, h1]; exact h2
    rw [h3, dictSum_add, e, trading_of_optInc gc h4]; simp
  · have e : TradingAcc c t.dt = true := by rw [gc.trading, h1]; exact h2
    rw [h3, dictSum_add, e, trading_of_optInc gc h4]; simp
  · have e : TradingAcc c t.cr = false := by rw [gc.trading, h1]; exact h2
    rw [h3, e, trading_of_optInc gc h4]; simp
  · have e : TradingAcc c t.dt = false := by rw [gc.trading, h1]; exact h2
    rw [h3, e, trading_of_optInc gc h4]; simp
  · rw [h3, trading_of_optInc gc h1, trading_of_optInc gc h4]; simp

/-- the gross profit, and where the keys come from -/
theorem classifyAll_gross {c : Chart} (gc : GoodChart c) : ∀ (txs : List Tx) {w w' : WriteOff}, classifyAll c w txs = .ok w' →
    (∀ t ∈ txs, ¬ (optInc (ref c t.cr) = true ∧ optInc (ref c t.dt) = true)) →
    dictSum w'.gross = dictSum w.gross + (txs.map (tradEffect c)).sum ∧
    (∀ e ∈ w'.gross, (∃ e' ∈ w.gross, e'.1 = e.1) ∨ ∃ t ∈ txs, ref c t.cr = some e.1 ∨ ref c t.dt = some e.1) ∧
    (∀ e ∈ w'.inc, (∃ e' ∈ w.inc, e'.1 = e.1) ∨ ∃ t ∈ txs, ref c t.cr = some e.1 ∨ ref c t.dt = some e.1) := by
  intro txs
  induction txs with
  | nil =>
    intro w w' h _
    simp only [classifyAll, Except.ok.injEq] at h
    subst h
    exact ⟨by simp, fun e he => .inl ⟨e, he, rfl⟩, fun e he => .inl ⟨e, he, rfl⟩⟩
  | cons t txs ih =>
    intro w w' h hg
    simp only [classifyAll] at h
    split at h
    · cases h
    · rename_i w1 h1
      obtain ⟨_, _, a3, a4, _⟩ := classify_spec h1 (hg t (by simp))
      obtain ⟨b1, b3, b4⟩ := ih h (fun t ht => hg t (by simp [ht]))
      refine ⟨?_, fun e he => ?_, fun e he => ?_⟩
      · rw [b1, classify_gross gc h1 (hg t (by simp)), List.map_cons, List.sum_cons]; ring
      · rcases b3 e he with ⟨e', h3, h4⟩ | ⟨t', h3, h4⟩
        · rcases a3 e' h3 with ⟨e2, h5, h6⟩ | ⟨h5, h6⟩
          · exact .inl ⟨e2, h5, h6.trans h4⟩
          · rw [h4] at h6; exact .inr ⟨t, by simp, h6⟩
        · exact .inr ⟨t', by simp [h3], h4⟩
      · rcases b4 e he with ⟨e', h3, h4⟩ | ⟨t', h3, h4⟩
        · rcases a4 e' h3 with ⟨e2, h5, h6⟩ | ⟨h5, h6⟩
          · exact .inl ⟨e2, h5, h6.trans h4⟩
          · rw [h4] at h6; exact .inr ⟨t, by simp, h6⟩
        · exact .inr ⟨t', by simp [h3], h4⟩

/-- the closing of trading accounts seen from the gross profit account -/
theorem netCredit_gross_self (c : Chart) (src : Str) (date : Int) (d : Dict Ref) (hd : ∀ e ∈ d, e.1.path ≠ c.grossProf) :
    netCredit c.grossProf (grossClosings c src date d) = - dictSum d := by
  induction d with
  | nil => simp [grossClosings, netCredit, dictSum]
  | cons e d ih =>
    obtain ⟨k, v⟩ := e
    have hk : k.path ≠ c.grossProf := hd (k, v) (by simp)
    simp only [grossClosings, netCredit_append, ih (fun e he => hd e (by simp [he])), dictSum, List.map_cons, List.sum_cons]
    rcases lt_trichotomy v 0 with h | h | h
    · rw [if_neg (by linarith), if_pos h, netCredit_closing, abs_of_neg h]; simp [hk]; ring
    · subst h; simp [netCredit]
    · rw [if_pos h, netCredit_closing, abs_of_pos h]; simp [hk]; ring

theorem netCredit_gross_other (c : Chart) (src : Str) (date : Int) (p : Str) (hp : p ≠ c.grossProf) (d : Dict Ref)
    (hd : ∀ e ∈ d, e.1.path ≠ p) : netCredit p (grossClosings c src date d) = 0 := by
  rw [netCredit_gross c src date p hp]
  apply List.sum_eq_zero
  intro x hx
  simp only [List.mem_map] at hx
  obtain ⟨e, he, rfl⟩ := hx
  rw [if_neg (hd e he)]

theorem netCredit_inc_other (c : Chart) (src : Str) (date : Int) (p : Str) (hp : p ≠ c.incSum) (d : Dict Ref)
    (hd : ∀ e ∈ d, e.1.path ≠ p) : netCredit p (incClosings c src date d) = 0 := by
  rw [netCredit_inc c src date p hp]
  apply List.sum_eq_zero
  intro x hx
  simp only [List.mem_map] at hx
  obtain ⟨e, he, rfl⟩ := hx
  rw [if_neg (hd e he)]

/-- the closing of other income accounts seen from the income summary account -/
theorem netCredit_inc_self (c : Chart) (src : Str) (date : Int) (d : Dict Ref) (hd : ∀ e ∈ d, e.1.path ≠ c.incSum) :
    netCredit c.incSum (incClosings c src date d) = incSum d := by
  induction d with
  | nil => simp [incClosings, netCredit, incSum]
  | cons e d ih =>
    obtain ⟨k, v⟩ := e
    have hk : k.path ≠ c.incSum := hd (k, v) (by simp)
    simp only [incClosings, netCredit_append, ih (fun e he => hd e (by simp [he])), incSum, List.map_cons, List.sum_cons]
    congr 1
    unfold sgn
    rcases lt_trichotomy v 0 with h | h | h
    · rw [if_neg (by linarith), if_pos h]
      by_cases hx : k.accountType = .expense
      · rw [if_pos hx, if_pos hx, netCredit_closing, abs_of_neg h]; simp [hk]
      · rw [if_neg hx, if_neg hx, netCredit_closing, abs_of_neg h]; simp [hk]
    · subst h; simp [netCredit]
    · rw [if_pos h]
      by_cases hx : k.accountType = .expense
      · rw [if_pos hx, if_pos hx, netCredit_closing, abs_of_pos h]; simp [hk]
      · rw [if_neg hx, if_neg hx, netCredit_closing, abs_of_pos h]; simp [hk]

theorem settle_gross (c : Chart) (src : Str) (date : Int) (g : ℚ) (h : c.grossProf ≠ c.incSum) :
    netCredit c.grossProf (grossSettle c src date g) = - g := by
  unfold grossSettle
  rcases lt_trichotomy g 0 with hg | hg | hg
  · rw [if_neg (by linarith), if_pos hg, netCredit_closing, abs_of_neg hg]; simp [h.symm]
  · subst hg; simp [netCredit]
  · rw [if_pos hg, netCredit_closing, abs_of_pos hg]; simp [h.symm]

theorem settle_inc (c : Chart) (src : Str) (date : Int) (g : ℚ) (h : c.grossProf ≠ c.incSum) :
    netCredit c.incSum (grossSettle c src date g) = g := by
  unfold grossSettle
  rcases lt_trichotomy g 0 with hg | hg | hg
  · rw [if_neg (by linarith), if_pos hg, netCredit_closing, abs_of_neg hg]; simp [h]
  · subst hg; simp [netCredit]
  · rw [if_pos hg, netCredit_closing, abs_of_pos hg]; simp [h]

theorem retained_inc (c : Chart) (src : Str) (date : Int) (g : ℚ) (h : c.retEarn ≠ c.incSum) :
    netCredit c.incSum (retainedClosings c src date g) = - |g| := by
  unfold retainedClosings
  rcases lt_trichotomy g 0 with hg | hg | hg
  · rw [if_neg (by linarith), if_pos hg, netCredit_closing, abs_of_neg hg]; simp [h]
  · subst hg; simp [netCredit]
  · rw [if_pos hg, netCredit_closing, abs_of_pos hg]; simp [h]

theorem closing_nonzero (c : Chart) (src : Str) (date : Int) (w : WriteOff) : ∀ t ∈ closingTxs c src date w, t.amount ≠ 0 := by
  intro t ht
  have k1 : ∀ d : Dict Ref, t ∈ grossClosings c src date d → t.amount ≠ 0 := by
    intro d
    induction d with
    | nil => simp [grossClosings]
    | cons e d ih =>
      intro h
      simp only [grossClosings, List.mem_append] at h
      rcases h with h | h
      · split at h
        · rename_i hv; simp only [List.mem_singleton] at h; subst h; simp only [closing]; exact abs_ne_zero.2 (ne_of_gt hv)
        · split at h
          · rename_i hv; simp only [List.mem_singleton] at h; subst h; simp only [closing]; exact abs_ne_zero.2 (ne_of_lt hv)
          · simp at h
      · exact ih h
  have k2 : ∀ d : Dict Ref, t ∈ incClosings c src date d → t.amount ≠ 0 := by
    intro d
    induction d with
    | nil => simp [incClosings]
    | cons e d ih =>
      intro h
      simp only [incClosings, List.mem_append] at h
      rcases h with h | h
      · split at h
        · rename_i hv
          split at h <;> (simp only [List.mem_singleton] at h; subst h; simp only [closing]; exact abs_ne_zero.2 (ne_of_gt hv))
        · split at h
          · rename_i hv
            split at h <;> (simp only [List.mem_singleton] at h; subst h; simp only [closing]; exact abs_ne_zero.2 (ne_of_lt hv))
          · simp at h
      · exact ih h
  simp only [closingTxs, List.mem_append] at ht
  rcases ht with ((h | h) | h) | h
  · exact k1 _ h
  · exact k2 _ h
  · unfold grossSettle at h
    split at h
    · rename_i hv; simp only [List.mem_singleton] at h; subst h; simp only [closing]; exact abs_ne_zero.2 (ne_of_gt hv)
    · split at h
      · rename_i hv; simp only [List.mem_singleton] at h; subst h; simp only [closing]; exact abs_ne_zero.2 (ne_of_lt hv)
      · simp at h
  · unfold retainedClosings at h
    split at h
    · rename_i hv; simp only [List.mem_singleton] at h; subst h; simp only [closing]; exact ne_of_gt hv
    · split at h
      · rename_i hv; simp only [List.mem_singleton] at h; subst h; simp only [closing]; exact ne_of_lt hv
      · simp at h

/-! ## When classification raises -/

/-- a revenue account outside sales and cost of sales -/
def Ref.revNT (r : Ref) : Bool := (r.accountType = .revenue) && !r.trading

theorem dictMem_add (r k : Ref) (v : ℚ) (d : Dict Ref) : dictMem r (dictAdd k v d) = (dictMem r d || decide (k = r)) := by
  induction d with
  | nil => simp [dictAdd, dictMem]
  | cons e d ih =>
    obtain ⟨k', v'⟩ := e
    simp only [dictAdd]
    split
    · rename_i h; subst h
      simp only [dictMem, List.any_cons]
      cases decide (k' = r) <;> simp
    · simp only [dictMem, List.any_cons] at ih ⊢
      rw [ih, Bool.or_assoc]

theorem classify_exact {c : Chart} {w : WriteOff} {t : Tx} {k d : Ref} (h1 : getRef c.str t.cr = .ok (some k))
    (h2 : getRef c.str t.dt = .ok (some d)) (hg : ¬ (k.income = true ∧ d.income = true)) :
    (d.revNT = true → dictMem d w.inc = false → classify c w t = .error .keyError) ∧
    ((d.revNT = true → dictMem d w.inc = true) → ∃ w', classify c w t = .ok w' ∧
      ∀ r : Ref, r.revNT = true → dictMem r w'.inc = (dictMem r w.inc || decide (k = r))) := by
  unfold classify
  rw [h1, h2]
  simp only [bind, Except.bind, pure, Except.pure, throw, throwThe, MonadExceptOf.throw]
  have kne : ∀ r : Ref, r.revNT = true → (k.revNT = false) → k ≠ r := by
    intro r hr hk e; subst e; rw [hr] at hk; cases hk
  have dinc : d.revNT = true → d.income = true := by
    intro h; simp only [Ref.revNT, Bool.and_eq_true, decide_eq_true_eq] at h
    simp [Ref.income, h.1]
  by_cases s1 : k.inSales
  · have ki : k.income = true := by simp [Ref.income, Ref.trading, s1]
    have kn : k.revNT = false := by simp [Ref.revNT, Ref.trading, s1]
    have dn : ¬ d.revNT = true := fun h => hg ⟨ki, dinc h⟩
    refine ⟨fun h => absurd h dn, fun _ => ⟨_, by simp only [s1, if_true]; rfl, fun r hr => ?_⟩⟩
    simp [kne r hr kn]
  simp only [s1, Bool.false_eq_true, if_false]
  by_cases s2 : d.inSales
  · have di : d.income = true := by simp [Ref.income, Ref.trading, s2]
    have dn : d.revNT = false := by simp [Ref.revNT, Ref.trading, s2]
    have kn : k.revNT = false := by
      by_contra h
      simp only [Bool.not_eq_false] at h
      simp only [Ref.revNT, Bool.and_eq_true, decide_eq_true_eq] at h
      exact hg ⟨by simp [Ref.income, h.1], di⟩
    refine ⟨fun h => (by rw [dn] at h; cases h), fun _ => ⟨_, by simp only [s2, if_true]; rfl, fun r hr => ?_⟩⟩
    simp [kne r hr kn]
  simp only [s2, Bool.false_eq_true, if_false]
  by_cases s3 : k.inCos
  · have ki : k.income = true := by simp [Ref.income, Ref.trading, s3]
    have kn : k.revNT = false := by simp [Ref.revNT, Ref.trading, s3]
    have dn : ¬ d.revNT = true := fun h => hg ⟨ki, dinc h⟩
    refine ⟨fun h => absurd h dn, fun _ => ⟨_, by simp only [s3, if_true]; rfl, fun r hr => ?_⟩⟩
    simp [kne r hr kn]
  simp only [s3, Bool.false_eq_true, if_false]
  by_cases s4 : d.inCos
  · have di : d.income = true := by simp [Ref.income, Ref.trading, s4]
    have dn : d.revNT = false := by simp [Ref.revNT, Ref.trading, s4]
    have kn : k.revNT = false := by
      by_contra h
      simp only [Bool.not_eq_false] at h
      simp only [Ref.revNT, Bool.and_eq_true, decide_eq_true_eq] at h
      exact hg ⟨by simp [Ref.income, h.1], di⟩
    refine ⟨fun h => (by rw [dn] at h; cases h), fun _ => ⟨_, by simp only [s4, if_true]; rfl, fun r hr => ?_⟩⟩
    simp [kne r hr kn]
  simp only [s4, Bool.false_eq_true, if_false]
  by_cases s5 : k.accountType = .revenue
  · have ki : k.income = true := by simp [Ref.income, s5]
    have dn : ¬ d.revNT = true := fun h => hg ⟨ki, dinc h⟩
    refine ⟨fun h => absurd h dn, fun _ => ⟨_, by simp only [s5, if_true]; rfl, fun r hr => ?_⟩⟩
    exact dictMem_add _ _ _ _
  simp only [s5, if_false]
  have kn : k.revNT = false := by simp [Ref.revNT, s5]
  by_cases s6 : d.accountType = .revenue
  · have dn : d.revNT = true := by simp [Ref.revNT, Ref.trading, s6, s2, s4]
    simp only [s6, if_true]
    constructor
    · intro _ h; rw [h]; simp
    · intro h
      rw [h dn]
      refine ⟨_, by simp only [if_true]; rfl, fun r hr => ?_⟩
      rw [dictMem_add]
      have := h dn
      by_cases e : d = r
      · subst e; simp [this]
      · simp [e, kne r hr kn]
  simp only [s6, if_false]
  have dn : d.revNT = false := by simp [Ref.revNT, s6]
  refine ⟨fun h => (by rw [dn] at h; cases h), fun _ => ?_⟩
  by_cases s7 : k.accountType = .expense
  · refine ⟨_, by simp only [s7, if_true]; rfl, fun r hr => ?_⟩
    exact dictMem_add _ _ _ _
  simp only [s7, if_false]
  by_cases s8 : d.accountType = .expense
  · refine ⟨_, by simp only [s8, if_true]; rfl, fun r hr => ?_⟩
    rw [dictMem_add]
    have : d ≠ r := by intro e; subst e; rw [dn] at hr; cases hr
    simp [this, kne r hr kn]
  · refine ⟨_, by simp only [s8, if_false]; rfl, fun r hr => ?_⟩
    simp [kne r hr kn]

theorem classifyAll_exact {c : Chart} : ∀ (txs seen : List Tx) (w : WriteOff),
    (∀ t ∈ txs, ∃ k d, getRef c.str t.cr = .ok (some k) ∧ getRef c.str t.dt = .ok (some d) ∧ ¬ (k.income = true ∧ d.income = true)) →
    (∀ r : Ref, r.revNT = true → (dictMem r w.inc = true ↔ ∃ t ∈ seen, ref c t.cr = some r)) →
    ((∀ pre t post r, txs = pre ++ t :: post → ref c t.dt = some r → r.revNT = true → ∃ t' ∈ seen ++ pre, ref c t'.cr = some r) →
      ∃ w', classifyAll c w txs = .ok w') ∧
    (∀ pre t post r, txs = pre ++ t :: post → ref c t.dt = some r → r.revNT = true → (∀ t' ∈ seen ++ pre, ref c t'.cr ≠ some r) →
      classifyAll c w txs = .error .keyError) := by
  intro txs
  induction txs with
  | nil => intro seen w _ _; exact ⟨fun _ => ⟨w, rfl⟩, fun pre t post r h => by simp at h⟩
  | cons t txs ih =>
    intro seen w hex hinv
    obtain ⟨k, d, h1, h2, hg⟩ := hex t (by simp)
    obtain ⟨c1, c2⟩ := classify_exact (w := w) h1 h2 hg
    have rk : ref c t.cr = some k := by simp [ref, h1]
    have rd : ref c t.dt = some d := by simp [ref, h2]
    by_cases hm : d.revNT = true → dictMem d w.inc = true
    · obtain ⟨w1, e1, e2⟩ := c2 hm
      have hinv' : ∀ r : Ref, r.revNT = true → (dictMem r w1.inc = true ↔ ∃ t' ∈ seen ++ [t], ref c t'.cr = some r) := by
        intro r hr
        rw [e2 r hr, Bool.or_eq_true, hinv r hr]
        simp only [decide_eq_true_eq, List.mem_append, List.mem_singleton, or_and_right, exists_or, exists_eq_left, rk, Option.some.injEq]
      obtain ⟨i1, i2⟩ := ih (seen ++ [t]) w1 (fun t ht => hex t (by simp [ht])) hinv'
      simp only [classifyAll, e1]
      constructor
      · intro H
        apply i1
        intro pre t' post r hp hr hrn
        obtain ⟨x, hx, hx2⟩ := H (t :: pre) t' post r (by simp [hp]) hr hrn
        exact ⟨x, by simpa using hx, hx2⟩
      · intro pre t' post r hp hr hrn hno
        cases pre with
        | nil =>
          simp only [List.nil_append, List.cons.injEq] at hp
          obtain ⟨rfl, rfl⟩ := hp
          rw [rd] at hr; simp only [Option.some.injEq] at hr; subst hr
          obtain ⟨x, hx, hx2⟩ := (hinv d hrn).1 (hm hrn)
          exact absurd hx2 (hno x (by simp [hx]))
        | cons p pre =>
          simp only [List.cons_append, List.cons.injEq] at hp
          obtain ⟨rfl, rfl⟩ := hp
          exact i2 pre t' post r rfl hr hrn (by intro x hx; exact hno x (by simpa using hx))
    · rw [Classical.not_imp] at hm
      obtain ⟨m1, m2⟩ := hm
      simp only [Bool.not_eq_true] at m2
      have e1 := c1 m1 m2
      simp only [classifyAll, e1]
      refine ⟨fun H => ?_, fun _ _ _ _ _ _ _ _ => trivial⟩
      obtain ⟨x, hx, hx2⟩ := H [] t txs d rfl rd m1
      have := (hinv d m1).2 ⟨x, by simpa using hx, hx2⟩
      rw [m2] at this; cases this

end Auxi.Business
