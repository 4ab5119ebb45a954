import Verif.IncomeFloat
import Verif.Props.ReportsFloat
import Verif.Proofs.Reports2

/-!
# C135: the income statement in floating point

`rnd` is any rounding that satisfies `IEEE rnd u η`; `ieee64` says that Python's floats do, with `u = 2 ** -53`.
-/
namespace Auxi.ReportsFloat.Props
open Auxi Auxi.Reports Auxi.Reports.Spec Auxi.ReportsFloat Auxi.ReportsFloat.Spec Auxi.ReportsFloat.Proofs Auxi.Rounding Auxi.Ledger
open Auxi.Business hiding dictSum
open Auxi.Reports.Props (gls mk)

variable {rnd : ℚ → ℚ} {u η : ℚ}

/-! ## The same program -/

theorem updF_id : updF id = dictUpd := by
  funext k v w d
  induction d with
  | nil => rfl
  | cons a d ih => obtain ⟨k', x⟩ := a; unfold updF dictUpd; rw [ih]; rfl

theorem incAddF_id (b : Income) (t : RTx) (c d : AccountType) : incAddF id b t c d = b.add t c d := by
  unfold incAddF Income.add incCreditF Income.credit incDebitF Income.debit
  rw [updF_id]
  rfl

theorem sumF_id (d : Dict Str) : sumF id d = dictSum d := by
  rw [sumF_eq]
  unfold listTotal dictSum
  rw [foldl_id, zero_add]

/-- **C135 (same program).** Without rounding the sums are those of the model of C13. -/
theorem C135_same (s : Structure) (comp : Str) (start stop : When) (txs : List RTx) (b : Income) :
    incomeSumsF id s comp start stop txs = incomeSums s comp start stop txs ∧ grossF id b = dictSum b.income - dictSum (b.expenses.filter (fun e => isCos e.1)) ∧
      otherF id b = dictSum b.expenses - dictSum (b.expenses.filter (fun e => isCos e.1)) ∧ netF id b = dictSum b.income - dictSum b.expenses := by
  refine ⟨?_, ?_, ?_, ?_⟩
  · unfold incomeSumsF incomeSums
    generalize (⟨[], []⟩ : Income) = b
    induction txs generalizing b with
    | nil => rfl
    | cons t ts ih => unfold incomeLoopF incomeLoop; simp only [incAddF_id, ih]; rfl
  · unfold grossF cosSumF; rw [sumF_id, sumF_id]; rfl
  · unfold otherF cosSumF; rw [sumF_id, sumF_id]; rfl
  · unfold netF; rw [sumF_id, sumF_id]; rfl

/-! ## Errors -/

theorem near_upd (R : IEEE rnd u η) {K : ℕ} {k : Str} {a x a' x' m : ℚ} (ha : rnd a = a) (hx : |a - x| ≤ slack u K * m) (hm : |x| ≤ m) (ha' : rnd a' = a')
    (hx' : |a' - x'| ≤ slack u K * m) (hm' : |x'| ≤ m) {d e n : Dict Str} (H : Near rnd u K d e n) : Near rnd u (K + 1) (updF rnd k a a' d) (dictUpd k x x' e) (dictAdd k m n) := by
  induction H with
  | nil => exact .cons ha' (hx'.trans (mul_le_mul_of_nonneg_right (slack_mono R.u0 (Nat.le_succ K)) ((abs_nonneg _).trans hm))) hm' .nil
  | @cons k' v y l d e n h1 h2 h3 h4 ih =>
    unfold updF dictUpd dictAdd
    by_cases hk : k' = k
    · simp only [if_pos hk]
      refine .cons (R.idem _) (step_err R h1 ha h2 hx h3 hm) ?_ (near_mono R.u0 (Nat.le_succ K) h4)
      exact (abs_add_le _ _).trans (add_le_add h3 hm)
    · simp only [if_neg hk]
      exact .cons h1 (h2.trans (mul_le_mul_of_nonneg_right (slack_mono R.u0 (Nat.le_succ K)) ((abs_nonneg _).trans h3))) h3 ih

theorem updF_length (k : Str) (v w : ℚ) (d : Dict Str) : (updF rnd k v w d).length ≤ d.length + 1 := by
  induction d with
  | nil => simp [updF]
  | cons a d ih => obtain ⟨k', x⟩ := a; unfold updF; split <;> simp <;> omega

/-- `Near` for the two parts. -/
structure IncNear (rnd : ℚ → ℚ) (u : ℚ) (K : ℕ) (b e n : Income) : Prop where
  income : Near rnd u K b.income e.income n.income
  expenses : Near rnd u K b.expenses e.expenses n.expenses

/-- The sizes put to an account. -/
def incM (b : Income) (ty : AccountType) (acc : Str) (m : ℚ) : Income :=
  match ty with
  | .revenue => { b with income := dictAdd acc m b.income }
  | .expense => { b with expenses := dictAdd acc m b.expenses }
  | _ => b

/-- Both parts. -/
def itot (b : Income) : ℚ := dictSum b.income + dictSum b.expenses

/-- Number of entries. -/
def icnt (b : Income) : ℕ := b.income.length + b.expenses.length

theorem incNear_mono (h : 0 ≤ u) {K J : ℕ} (hK : K ≤ J) {b e n : Income} (H : IncNear rnd u K b e n) : IncNear rnd u J b e n := ⟨near_mono h hK H.1, near_mono h hK H.2⟩

theorem near_incCredit (R : IEEE rnd u η) {K : ℕ} {b e n : Income} (H : IncNear rnd u K b e n) (ty : AccountType) (acc : Str) {a x m : ℚ} (ha : rnd a = a)
    (hx : |a - x| ≤ slack u K * m) (hm : |x| ≤ m) : IncNear rnd u (K + 1) (incCreditF rnd b ty acc a) (e.credit ty acc x) (incM n ty acc m) := by
  have g := incNear_mono R.u0 (Nat.le_succ K) H
  have na : rnd (-a) = -a := by rw [R.neg, ha]
  have nx : |-a - -x| ≤ slack u K * m := by rwa [← abs_neg, show -(-a - -x) = a - x by ring]
  have nm : |-x| ≤ m := by rwa [abs_neg]
  cases ty
  · exact g
  · exact g
  · exact ⟨g.1, near_upd R na nx nm ha hx hm H.2⟩
  · exact g
  · exact ⟨near_upd R ha hx hm ha hx hm H.1, g.2⟩

theorem near_incDebit (R : IEEE rnd u η) {K : ℕ} {b e n : Income} (H : IncNear rnd u K b e n) (ty : AccountType) (acc : Str) {a x m : ℚ} (ha : rnd a = a)
    (hx : |a - x| ≤ slack u K * m) (hm : |x| ≤ m) : IncNear rnd u (K + 1) (incDebitF rnd b ty acc a) (e.debit ty acc x) (incM n ty acc m) := by
  have g := incNear_mono R.u0 (Nat.le_succ K) H
  have na : rnd (-a) = -a := by rw [R.neg, ha]
  have nx : |-a - -x| ≤ slack u K * m := by rwa [← abs_neg, show -(-a - -x) = a - x by ring]
  have nm : |-x| ≤ m := by rwa [abs_neg]
  cases ty
  · exact g
  · exact g
  · exact ⟨g.1, near_upd R ha hx hm ha hx hm H.2⟩
  · exact g
  · exact ⟨near_upd R na nx nm ha hx hm H.1, g.2⟩

theorem itot_incM (b : Income) (ty : AccountType) (acc : Str) {m : ℚ} (hm : 0 ≤ m) : itot (incM b ty acc m) ≤ itot b + m := by
  cases ty <;> simp only [incM, itot, dictSum_dictAdd] <;> linarith

theorem icnt_credit (b : Income) (ty : AccountType) (acc : Str) (a : ℚ) : icnt (incCreditF rnd b ty acc a) ≤ icnt b + 1 := by
  cases ty <;> simp only [incCreditF, icnt]
  · omega
  · omega
  · have := updF_length (rnd := rnd) acc (-a) a b.expenses; omega
  · omega
  · have := updF_length (rnd := rnd) acc a a b.income; omega

theorem icnt_debit (b : Income) (ty : AccountType) (acc : Str) (a : ℚ) : icnt (incDebitF rnd b ty acc a) ≤ icnt b + 1 := by
  cases ty <;> simp only [incDebitF, icnt]
  · omega
  · omega
  · have := updF_length (rnd := rnd) acc a a b.expenses; omega
  · omega
  · have := updF_length (rnd := rnd) acc (-a) a b.income; omega

theorem size_incM (b : Income) (ty : AccountType) (acc p : Str) {m : ℚ} (hm : 0 ≤ m) :
    size p (incM b ty acc m).income ≤ size p b.income + (if acc = p then m else 0) ∧ size p (incM b ty acc m).expenses ≤ size p b.expenses + (if acc = p then m else 0) := by
  have h : 0 ≤ (if acc = p then m else 0) := by split <;> simp [hm]
  cases ty <;> simp only [incM, size_dictAdd] <;> refine ⟨?_, ?_⟩ <;> linarith

theorem incLoop_near (R : IEEE rnd u η) {s : Structure} {comp : Str} {start stop : When} {K : ℕ} {txs ex : List RTx} (H : List.Forall₂ (Recorded rnd u K) txs ex) :
    ∀ (J : ℕ), K ≤ J → ∀ b e n b' : Income, IncNear rnd u J b e n → incomeLoopF rnd s comp start stop b txs = .ok b' →
    ∃ e' n', incomeLoop s comp start stop e ex = .ok e' ∧ IncNear rnd u (J + 2 * (ex.filter (selected comp start stop)).length) b' e' n' ∧
      itot n' ≤ itot n + 2 * totalAbs (ex.filter (selected comp start stop)) ∧ icnt b' ≤ icnt b + 2 * (ex.filter (selected comp start stop)).length ∧
      ∀ p, size p n'.income ≤ size p n.income + turnover p (ex.filter (selected comp start stop)) ∧
        size p n'.expenses ≤ size p n.expenses + turnover p (ex.filter (selected comp start stop)) := by
  induction H with
  | nil =>
    intro J hJ b e n b' hn h
    simp only [incomeLoopF, Except.ok.injEq] at h
    subst h
    exact ⟨e, n, rfl, by simpa using hn, by simp [totalAbs], by simp, by simp [turnover]⟩
  | @cons t x ts xs hr hrs ih =>
    intro J hJ b e n b' hn h
    obtain ⟨h1, h2, h3⟩ := hr
    have e0 : t.source = x.source := by rw [h1]
    have e1 : t.date = x.date := by rw [h1]
    have e2 : t.cr = x.cr := by rw [h1]
    have e3 : t.dt = x.dt := by rw [h1]
    have e4 : t.closingCr = x.closingCr := by rw [h1]
    have e5 : t.closingDt = x.closingDt := by rw [h1]
    simp only [incomeLoopF, e0, e1, e2, e3] at h
    simp only [incomeLoop]
    split at h
    · cases h
    · rename_i src hsrc
      simp only [hsrc]
      split at h
      · rename_i hp
        rw [if_pos hp]
        split at h
        · cases h
        · rename_i hw
          have hsel : selected comp start stop x = false := by
            have := within_ok hw
            simp only [selected, hsrc, hp, Bool.true_and]
            exact this
          rw [List.filter_cons, hsel]
          simp only [hw]
          exact ih J hJ b e n b' hn h
        · rename_i hw
          have hsel : selected comp start stop x = true := by
            have := within_ok hw
            simp only [selected, hsrc, hp, Bool.true_and]
            exact this
          split at h
          · cases h
          · rename_i cty hcty
            split at h
            · cases h
            · rename_i dty hdty
              rw [List.filter_cons, hsel, if_pos rfl]
              obtain ⟨c, hc, -⟩ := acctType_some hcty
              obtain ⟨d, hd, -⟩ := acctType_some hdty
              have m0 : 0 ≤ |x.amount| := abs_nonneg _
              simp only [hw, hcty, hdty]
              unfold incAddF at h
              unfold Income.add
              simp only [e2, e3, e4, e5] at h
              have g1 := h3.trans (mul_le_mul_of_nonneg_right (slack_mono R.u0 hJ) m0)
              have g2 := h3.trans (mul_le_mul_of_nonneg_right (slack_mono R.u0 (hJ.trans (Nat.le_succ J))) m0)
              have step1 : ∃ n1, IncNear rnd u (J + 1)
                  (if x.closingCr = false ∧ x.closingDt = false ∧ x.cr ≠ some [] then incCreditF rnd b cty (x.cr.getD []) t.amount else b)
                  (if x.closingCr = false ∧ x.closingDt = false ∧ x.cr ≠ some [] then e.credit cty (x.cr.getD []) x.amount else e) n1 ∧
                  itot n1 ≤ itot n + |x.amount| ∧
                  icnt (if x.closingCr = false ∧ x.closingDt = false ∧ x.cr ≠ some [] then incCreditF rnd b cty (x.cr.getD []) t.amount else b) ≤ icnt b + 1 ∧
                  ∀ p, size p n1.income ≤ size p n.income + (if x.cr = some p then |x.amount| else 0) ∧ size p n1.expenses ≤ size p n.expenses + (if x.cr = some p then |x.amount| else 0) := by
                by_cases hq : x.closingCr = false ∧ x.closingDt = false ∧ x.cr ≠ some []
                · simp only [if_pos hq]
                  refine ⟨_, near_incCredit R hn cty (x.cr.getD []) h2 g1 (le_refl _), itot_incM n cty _ m0, icnt_credit b cty _ _, fun p => ?_⟩
                  have := size_incM n cty (x.cr.getD []) p m0
                  simpa only [hc, Option.getD_some, Option.some.injEq] using this
                · simp only [if_neg hq]
                  refine ⟨n, incNear_mono R.u0 (Nat.le_succ J) hn, by linarith, by omega, fun p => ?_⟩
                  constructor <;> split <;> linarith
              obtain ⟨n1, k1, k2, k3, k4⟩ := step1
              revert h k1 k3
              generalize (if x.closingCr = false ∧ x.closingDt = false ∧ x.cr ≠ some [] then incCreditF rnd b cty (x.cr.getD []) t.amount else b) = b1
              generalize (if x.closingCr = false ∧ x.closingDt = false ∧ x.cr ≠ some [] then e.credit cty (x.cr.getD []) x.amount else e) = eb1
              intro h k1 k3
              have step2 : ∃ n2, IncNear rnd u (J + 2)
                  (if x.closingCr = false ∧ x.closingDt = false ∧ x.dt ≠ some [] then incDebitF rnd b1 dty (x.dt.getD []) t.amount else b1)
                  (if x.closingCr = false ∧ x.closingDt = false ∧ x.dt ≠ some [] then eb1.debit dty (x.dt.getD []) x.amount else eb1) n2 ∧
                  itot n2 ≤ itot n1 + |x.amount| ∧
                  icnt (if x.closingCr = false ∧ x.closingDt = false ∧ x.dt ≠ some [] then incDebitF rnd b1 dty (x.dt.getD []) t.amount else b1) ≤ icnt b1 + 1 ∧
                  ∀ p, size p n2.income ≤ size p n1.income + (if x.dt = some p then |x.amount| else 0) ∧ size p n2.expenses ≤ size p n1.expenses + (if x.dt = some p then |x.amount| else 0) := by
                by_cases hq : x.closingCr = false ∧ x.closingDt = false ∧ x.dt ≠ some []
                · simp only [if_pos hq]
                  refine ⟨_, near_incDebit R k1 dty (x.dt.getD []) h2 g2 (le_refl _), itot_incM n1 dty _ m0, icnt_debit b1 dty _ _, fun p => ?_⟩
                  have := size_incM n1 dty (x.dt.getD []) p m0
                  simpa only [hd, Option.getD_some, Option.some.injEq] using this
                · simp only [if_neg hq]
                  refine ⟨n1, incNear_mono R.u0 (Nat.le_succ _) k1, by linarith, by omega, fun p => ?_⟩
                  constructor <;> split <;> linarith
              obtain ⟨n2, l1, l2, l3, l4⟩ := step2
              obtain ⟨e', n', i1, i2, i3, i4, i5⟩ := ih (J + 2) (by omega) _ _ _ b' l1 h
              refine ⟨e', n', i1, ?_, ?_, ?_, ?_⟩
              · rw [List.length_cons]
                rwa [show J + 2 * ((xs.filter (selected comp start stop)).length + 1) = J + 2 + 2 * (xs.filter (selected comp start stop)).length by omega]
              · rw [totalAbs_cons]; linarith
              · rw [List.length_cons]; omega
              · intro p
                obtain ⟨q1, q2⟩ := i5 p
                obtain ⟨r1, r2⟩ := k4 p
                obtain ⟨s1, s2⟩ := l4 p
                rw [turnover_cons]
                constructor <;> linarith
      · rename_i hp
        rw [if_neg hp]
        have hsel : selected comp start stop x = false := by
          simp only [selected, hsrc]
          simp [hp]
        rw [List.filter_cons, hsel]
        exact ih J hJ b e n b' hn h

theorem income_near (R : IEEE rnd u η) {s : Structure} {comp : Str} {start stop : When} {K : ℕ} {txs ex : List RTx} (H : List.Forall₂ (Recorded rnd u K) txs ex)
    {b : Income} (h : incomeSumsF rnd s comp start stop txs = .ok b) :
    ∃ e n, incomeSums s comp start stop ex = .ok e ∧ IncNear rnd u (K + 2 * (ex.filter (selected comp start stop)).length) b e n ∧
      itot n ≤ 2 * totalAbs (ex.filter (selected comp start stop)) ∧ icnt b ≤ 2 * (ex.filter (selected comp start stop)).length ∧
      ∀ p, size p n.income ≤ turnover p (ex.filter (selected comp start stop)) ∧ size p n.expenses ≤ turnover p (ex.filter (selected comp start stop)) := by
  obtain ⟨e, n, h1, h2, h3, h4, h5⟩ := incLoop_near R H K (le_refl _) ⟨[], []⟩ ⟨[], []⟩ ⟨[], []⟩ b ⟨.nil, .nil⟩ h
  refine ⟨e, n, h1, h2, ?_, ?_, ?_⟩
  · simpa [itot, dictSum] using h3
  · simpa [icnt] using h4
  · intro p; simpa [size, lookup_nil] using h5 p

theorem near_filter {K : ℕ} (P : Str → Bool) {d e n : Dict Str} (H : Near rnd u K d e n) :
    Near rnd u K (d.filter (fun x => P x.1)) (e.filter (fun x => P x.1)) (n.filter (fun x => P x.1)) ∧ dictSum (n.filter (fun x => P x.1)) ≤ dictSum n := by
  induction H with
  | nil => exact ⟨.nil, le_refl _⟩
  | @cons k v y l d e n h1 h2 h3 h4 ih =>
    simp only [List.filter_cons]
    have l0 : 0 ≤ l := (abs_nonneg _).trans h3
    cases P k with
    | true =>
      refine ⟨.cons h1 h2 h3 ih.1, ?_⟩
      have := ih.2
      simp only [dictSum, if_true, List.map_cons, List.sum_cons] at this ⊢
      linarith
    | false =>
      refine ⟨ih.1, ?_⟩
      have := ih.2
      simp only [dictSum, Bool.false_eq_true, if_false, List.map_cons, List.sum_cons] at this ⊢
      linarith

theorem step_sub (R : IEEE rnd u η) {v w x y m n : ℚ} {K : ℕ} (hv : rnd v = v) (hw : rnd w = w) (h1 : |v - x| ≤ slack u K * m) (h2 : |w - y| ≤ slack u K * n)
    (hx : |x| ≤ m) (hy : |y| ≤ n) : |rnd (v - w) - (x - y)| ≤ slack u (K + 1) * (m + n) := by
  have := step_err R hv (w := -w) (y := -y) (by rw [R.neg, hw]) h1 (by rwa [← abs_neg, show -(-w - -y) = w - y by ring]) hx (by rwa [abs_neg])
  rwa [← sub_eq_add_neg, ← sub_eq_add_neg] at this

/-- **C135 (totals).** In floating point the three totals of an income statement are the exact ones within a few roundings for each transaction, relative to the sizes of the amounts. -/
theorem C135_totals (R : IEEE rnd u η) (s : Structure) (comp : Str) (start stop : When) (K : ℕ) (txs ex : List RTx) (H : List.Forall₂ (Recorded rnd u K) txs ex)
    (b : Income) (h : incomeSumsF rnd s comp start stop txs = .ok b) :
    ∃ e, incomeSums s comp start stop ex = .ok e ∧
      (∀ x ∈ [(grossF rnd b, dictSum e.income - dictSum (e.expenses.filter (fun x => isCos x.1))), (otherF rnd b, dictSum e.expenses - dictSum (e.expenses.filter (fun x => isCos x.1))),
          (netF rnd b, dictSum e.income - dictSum e.expenses)],
        |x.1 - x.2| ≤ slack u (K + 4 * (ex.filter (selected comp start stop)).length + 1) * (4 * totalAbs (ex.filter (selected comp start stop)))) := by
  obtain ⟨e, n, h1, h2, h3, h4, -⟩ := income_near R H h
  refine ⟨e, h1, ?_⟩
  generalize (ex.filter (selected comp start stop)) = sel at *
  have u0 := R.u0
  obtain ⟨c1, c2⟩ := near_filter isCos h2.2
  have lc : (b.expenses.filter (fun x => isCos x.1)).length ≤ b.expenses.length := List.length_filter_le _ _
  obtain ⟨a1, a2, a3⟩ := near_sum R h2.1
  obtain ⟨b1, b2, b3⟩ := near_sum R h2.2
  obtain ⟨d1, d2, d3⟩ := near_sum R c1
  have p1 := near_sum_nonneg h2.1
  have p2 := near_sum_nonneg h2.2
  have p3 := near_sum_nonneg c1
  unfold icnt at h4
  unfold itot at h3
  have la := a2.trans (mul_le_mul_of_nonneg_right (slack_mono u0 (show _ ≤ K + 4 * sel.length by omega)) p1)
  have lb := b2.trans (mul_le_mul_of_nonneg_right (slack_mono u0 (show _ ≤ K + 4 * sel.length by omega)) p2)
  have ld := d2.trans (mul_le_mul_of_nonneg_right (slack_mono u0 (show _ ≤ K + 4 * sel.length by omega)) p3)
  have s0 := slack_nonneg u0 (K + 4 * sel.length + 1)
  have t0 := totalAbs_nonneg sel
  intro x hx
  simp only [List.mem_cons, List.not_mem_nil, or_false] at hx
  rcases hx with rfl | rfl | rfl
  · exact (step_sub R a1 d1 la ld a3 d3).trans (mul_le_mul_of_nonneg_left (by linarith) s0)
  · exact (step_sub R b1 d1 lb ld b3 d3).trans (mul_le_mul_of_nonneg_left (by linarith) s0)
  · exact (step_sub R a1 b1 la lb a3 b3).trans (mul_le_mul_of_nonneg_left (by linarith) s0)

/-- **C135 (entries).** The same accounts are shown, each with its exact amount within a few roundings relative to its turnover. -/
theorem C135_entries (R : IEEE rnd u η) (s : Structure) (comp : Str) (start stop : When) (K : ℕ) (txs ex : List RTx) (H : List.Forall₂ (Recorded rnd u K) txs ex)
    (b : Income) (h : incomeSumsF rnd s comp start stop txs = .ok b) :
    ∃ e, incomeSums s comp start stop ex = .ok e ∧ ∀ (p : Str) (d d' : Dict Str), (d, d') ∈ [(b.income, e.income), (b.expenses, e.expenses)] →
      (lookup p d = none ∧ lookup p d' = none) ∨
      ∃ v x, lookup p d = some v ∧ lookup p d' = some x ∧
        |v - x| ≤ slack u (K + 2 * (ex.filter (selected comp start stop)).length) * turnover p (ex.filter (selected comp start stop)) := by
  obtain ⟨e, n, h1, h2, -, -, h5⟩ := income_near R H h
  refine ⟨e, h1, ?_⟩
  intro p d d' hd
  have key : ∀ (d d' m : Dict Str), Near rnd u (K + 2 * (ex.filter (selected comp start stop)).length) d d' m → size p m ≤ turnover p (ex.filter (selected comp start stop)) →
      (lookup p d = none ∧ lookup p d' = none) ∨
      ∃ v x, lookup p d = some v ∧ lookup p d' = some x ∧
        |v - x| ≤ slack u (K + 2 * (ex.filter (selected comp start stop)).length) * turnover p (ex.filter (selected comp start stop)) := by
    intro d d' m hn hs
    rcases near_lookup hn p with ⟨a, b, -⟩ | ⟨v, x, m', a, b, c, -, g, -⟩
    · exact Or.inl ⟨a, b⟩
    · refine Or.inr ⟨v, x, a, b, g.trans (mul_le_mul_of_nonneg_left ?_ (slack_nonneg R.u0 _))⟩
      unfold size at hs
      rwa [c] at hs
  obtain ⟨q1, q2⟩ := h5 p
  simp only [List.mem_cons, Prod.mk.injEq, List.not_mem_nil, or_false] at hd
  rcases hd with ⟨rfl, rfl⟩ | ⟨rfl, rfl⟩
  · exact key _ _ _ h2.1 q1
  · exact key _ _ _ h2.2 q2

/-! ## Whole cents -/

/-- All amounts in the dictionary are whole numbers of cents. -/
def WholeD (d : Dict Str) : Prop := ∀ e ∈ d, ∃ k : ℤ, e.2 = (k : ℚ) / 100

theorem whole_upd {d : Dict Str} (h : WholeD d) (k : Str) {v w : ℚ} (hv : ∃ j : ℤ, v = (j : ℚ) / 100) (hw : ∃ j : ℤ, w = (j : ℚ) / 100) : WholeD (dictUpd k v w d) := by
  induction d with
  | nil => intro e he; obtain rfl := List.mem_singleton.1 he; exact hw
  | cons a d ih =>
    obtain ⟨k', x⟩ := a
    unfold dictUpd
    have h0 := h _ List.mem_cons_self
    have h1 : WholeD d := fun e he => h e (List.mem_cons_of_mem _ he)
    split
    · intro e he
      rcases List.mem_cons.1 he with rfl | he
      · obtain ⟨i, hi⟩ := h0
        obtain ⟨j, hj⟩ := hv
        exact ⟨i + j, by simp only at hi ⊢; rw [hi, hj]; push_cast; ring⟩
      · exact h1 e he
    · intro e he
      rcases List.mem_cons.1 he with rfl | he
      · exact h0
      · exact ih h1 e he

theorem whole_sum {d : Dict Str} (h : WholeD d) : ∃ k : ℤ, dictSum d = (k : ℚ) / 100 := by
  induction d with
  | nil => exact ⟨0, by simp [dictSum]⟩
  | cons a d ih =>
    obtain ⟨j, hj⟩ := ih (fun e he => h e (List.mem_cons_of_mem _ he))
    obtain ⟨i, hi⟩ := h a List.mem_cons_self
    refine ⟨i + j, ?_⟩
    simp only [dictSum, List.map_cons, List.sum_cons] at hj ⊢
    rw [hi, hj]; push_cast; ring

theorem income_whole {s : Structure} {comp : Str} {start stop : When} : ∀ (ex : List RTx) (b e : Income), (∀ x ∈ ex, WholeCents x) → WholeD b.income → WholeD b.expenses →
    incomeLoop s comp start stop b ex = .ok e → WholeD e.income ∧ WholeD e.expenses
  | [], b, e, _, h1, h2, h => by injection h with h; subst h; exact ⟨h1, h2⟩
  | t :: ts, b, e, hw, h1, h2, h => by
    have hw' : ∀ x ∈ ts, WholeCents x := fun x hx => hw x (List.mem_cons_of_mem _ hx)
    have ht := hw t List.mem_cons_self
    have hn : ∃ j : ℤ, -t.amount = (j : ℚ) / 100 := by obtain ⟨k, hk⟩ := ht; exact ⟨-k, by rw [hk]; push_cast; ring⟩
    have hc : ∀ (b : Income) (ty : AccountType) (acc : Str), WholeD b.income → WholeD b.expenses → WholeD (b.credit ty acc t.amount).income ∧ WholeD (b.credit ty acc t.amount).expenses := by
      intro b ty acc g1 g2
      cases ty <;> simp only [Income.credit]
      · exact ⟨g1, g2⟩
      · exact ⟨g1, g2⟩
      · exact ⟨g1, whole_upd g2 _ hn ht⟩
      · exact ⟨g1, g2⟩
      · exact ⟨whole_upd g1 _ ht ht, g2⟩
    have hd : ∀ (b : Income) (ty : AccountType) (acc : Str), WholeD b.income → WholeD b.expenses → WholeD (b.debit ty acc t.amount).income ∧ WholeD (b.debit ty acc t.amount).expenses := by
      intro b ty acc g1 g2
      cases ty <;> simp only [Income.debit]
      · exact ⟨g1, g2⟩
      · exact ⟨g1, g2⟩
      · exact ⟨g1, whole_upd g2 _ ht ht⟩
      · exact ⟨g1, g2⟩
      · exact ⟨whole_upd g1 _ hn ht, g2⟩
    simp only [incomeLoop] at h
    split at h
    · cases h
    · split at h
      · split at h
        · cases h
        · exact income_whole ts b e hw' h1 h2 h
        · split at h
          · cases h
          · split at h
            · cases h
            · rename_i cty _ _ dty _
              have k : WholeD (b.add t cty dty).income ∧ WholeD (b.add t cty dty).expenses := by
                unfold Income.add
                simp only
                have k1 : WholeD (if t.closingCr = false ∧ t.closingDt = false ∧ t.cr ≠ some [] then b.credit cty (t.cr.getD []) t.amount else b).income ∧
                    WholeD (if t.closingCr = false ∧ t.closingDt = false ∧ t.cr ≠ some [] then b.credit cty (t.cr.getD []) t.amount else b).expenses := by
                  split
                  · exact hc b cty _ h1 h2
                  · exact ⟨h1, h2⟩
                split
                · exact hd _ dty _ k1.1 k1.2
                · exact k1
              exact income_whole ts _ e hw' k.1 k.2 h
      · exact income_whole ts b e hw' h1 h2 h

/-- **C135 (whole cents).** If every amount is a whole number of cents, stored as the machine stores it, then in bounds (for example ten thousand transactions of two hundred million together) every printed number of the
income statement is exactly the true one; and a net income that is not zero is printed in parentheses exactly when it is a loss. -/
theorem C135_whole_cents (s : Structure) (comp : Str) (start stop : When) (ex : List RTx) (hw : ∀ x ∈ ex, WholeCents x) (b : Income)
    (h : incomeSumsF rnd64 s comp start stop (ex.map stored) = .ok b) (hn : 4 * (ex.filter (selected comp start stop)).length + 3 ≤ 2 ^ 49)
    (hS : (4 * (ex.filter (selected comp start stop)).length + 3 : ℕ) * totalAbs (ex.filter (selected comp start stop)) ≤ 10000000000000) :
    ∃ e, incomeSums s comp start stop ex = .ok e ∧
      (cents (grossF rnd64 b) : ℚ) = 100 * (dictSum e.income - dictSum (e.expenses.filter (fun x => isCos x.1))) ∧
      (cents (otherF rnd64 b) : ℚ) = 100 * (dictSum e.expenses - dictSum (e.expenses.filter (fun x => isCos x.1))) ∧
      ((netPrinted rnd64 b).2 : ℚ) = 100 * |dictSum e.income - dictSum e.expenses| ∧
      (dictSum e.income ≠ dictSum e.expenses → ((netPrinted rnd64 b).1 = true ↔ dictSum e.income < dictSum e.expenses)) ∧
      (∀ (p : Str) (d d' : Dict Str), (d, d') ∈ [(b.income, e.income), (b.expenses, e.expenses)] →
        (lookup p d).map (fun v => (cents v : ℚ)) = (lookup p d').map (fun x => 100 * x)) := by
  have H := recorded_stored hw
  obtain ⟨e, h1, h2⟩ := C135_totals ieee64 s comp start stop 2 _ ex H b h
  obtain ⟨e', h1', h3⟩ := C135_entries ieee64 s comp start stop 2 _ ex H b h
  rw [h1] at h1'
  cases h1'
  obtain ⟨w1, w2⟩ := income_whole ex _ e hw (by intro x hx; cases hx) (by intro x hx; cases hx) h1
  have w3 : WholeD (e.expenses.filter (fun x => isCos x.1)) := fun x hx => w2 x (List.mem_of_mem_filter hx)
  obtain ⟨i, hi⟩ := whole_sum w1
  obtain ⟨j, hj⟩ := whole_sum w2
  obtain ⟨c, hc⟩ := whole_sum w3
  have hT : (4 * (ex.filter (selected comp start stop)).length + 3 : ℕ) * (2 * totalAbs (ex.filter (selected comp start stop))) ≤ 1 / 200 * 4000000000000000 := by linarith
  generalize hsel : ex.filter (selected comp start stop) = sel at *
  have t0 := totalAbs_nonneg sel
  have lt := slack_lt hn (S := 2 * totalAbs sel) (by linarith) (ε := 1 / 200) hT (by norm_num)
  rw [show 2 + 4 * sel.length + 1 = 4 * sel.length + 3 by omega] at h2
  rw [show 2 * (2 * totalAbs sel) = 4 * totalAbs sel by ring] at lt
  have key : ∀ {v x : ℚ} {k : ℤ}, |v - x| ≤ slack (pow2 (-53)) (4 * sel.length + 3) * (4 * totalAbs sel) → x = (k : ℚ) / 100 → (cents v : ℚ) = 100 * x := by
    intro v x k hv hx
    rw [cents_whole (k := k) (by rw [← hx]; exact lt_of_le_of_lt hv lt), hx]; ring
  have q1 := h2 (_, _) List.mem_cons_self
  have q2 := h2 (_, _) (List.mem_cons_of_mem _ List.mem_cons_self)
  have q3 := h2 (_, _) (List.mem_cons_of_mem _ (List.mem_cons_of_mem _ List.mem_cons_self))
  dsimp only at q1 q2 q3
  have hnet : dictSum e.income - dictSum e.expenses = ((i - j : ℤ) : ℚ) / 100 := by rw [hi, hj]; push_cast; ring
  refine ⟨e, h1, key (k := i - c) q1 (by rw [hi, hc]; push_cast; ring), key (k := j - c) q2 (by rw [hj, hc]; push_cast; ring), ?_, ?_, ?_⟩
  · unfold netPrinted
    refine key (k := |i - j|) ((abs_abs_sub_abs_le_abs_sub _ _).trans q3) ?_
    rw [hnet, abs_div, Int.cast_abs]
    norm_num
  · intro hne
    have q4 := abs_lt.1 (lt_of_le_of_lt q3 lt)
    have hij : i - j ≠ 0 := by
      intro h0
      apply hne
      rw [h0] at hnet
      simp at hnet
      linarith
    unfold netPrinted
    rw [decide_eq_true_iff, ← sub_neg (a := dictSum e.income) (b := dictSum e.expenses), hnet]
    rw [hnet] at q4
    rcases lt_or_gt_of_ne hij with hl | hg
    · have : ((i - j : ℤ) : ℚ) ≤ -1 := by exact_mod_cast (by omega : i - j ≤ -1)
      constructor
      · intro _; linarith
      · intro _; linarith [q4.2]
    · have : (1 : ℚ) ≤ ((i - j : ℤ) : ℚ) := by exact_mod_cast (by omega : 1 ≤ i - j)
      constructor
      · intro _; linarith [q4.1]
      · intro _; linarith
  · intro p d d' hd
    rcases h3 p d d' hd with ⟨a, b⟩ | ⟨v, x, a, b, g⟩
    · rw [a, b]; rfl
    · have hx : ∃ m : ℤ, x = (m : ℚ) / 100 := by
        have hmem : ∃ y ∈ d', y.2 = x := by
          unfold lookup at b
          obtain ⟨y, hy1, hy2⟩ := Option.map_eq_some_iff.1 b
          exact ⟨y, List.mem_of_find?_eq_some hy1, hy2⟩
        obtain ⟨y, hy, rfl⟩ := hmem
        simp only [List.mem_cons, Prod.mk.injEq, List.not_mem_nil, or_false] at hd
        rcases hd with ⟨-, rfl⟩ | ⟨-, rfl⟩
        · exact w1 y hy
        · exact w2 y hy
      obtain ⟨m, hm⟩ := hx
      have t := turnover_le p sel
      have s1 := slack_mono (pow2_pos (-53)).le (show 2 + 2 * sel.length ≤ 4 * sel.length + 3 by omega)
      have s0 := slack_nonneg (pow2_pos (-53)).le (2 + 2 * sel.length)
      have s2 := slack_nonneg (pow2_pos (-53)).le (4 * sel.length + 3)
      rw [a, b]
      simp only [Option.map_some, Option.some.injEq]
      refine key (k := m) (g.trans ((mul_le_mul_of_nonneg_left t s0).trans ((mul_le_mul_of_nonneg_right s1 (by linarith)).trans ?_))) hm
      exact mul_le_mul_of_nonneg_left (by linarith) s2

/-- **C135 (refusals).** The statement in floating point is refused exactly when the exact one is, with the same error. -/
theorem C135_refusals (s : Structure) (comp : Str) (start stop : When) (K : ℕ) (txs ex : List RTx) (H : List.Forall₂ (Recorded rnd u K) txs ex) (err : PyErr) :
    incomeSumsF rnd s comp start stop txs = .error err ↔ incomeSums s comp start stop ex = .error err := by
  unfold incomeSumsF incomeSums
  generalize (⟨[], []⟩ : Income) = b
  have key : ∀ b e : Income, (∃ x, incomeLoopF rnd s comp start stop b txs = .error x ∧ incomeLoop s comp start stop e ex = .error x) ∨
      (∃ x y, incomeLoopF rnd s comp start stop b txs = .ok x ∧ incomeLoop s comp start stop e ex = .ok y) := by
    induction H with
    | nil => exact fun b e => .inr ⟨b, e, rfl, rfl⟩
    | @cons t x ts xs hr hrs ih =>
      intro b e
      have h1 := hr.1
      have e0 : t.source = x.source := by rw [h1]
      have e1 : t.date = x.date := by rw [h1]
      have e2 : t.cr = x.cr := by rw [h1]
      have e3 : t.dt = x.dt := by rw [h1]
      simp only [incomeLoopF, incomeLoop, e0, e1, e2, e3]
      cases x.source with
      | none => exact .inl ⟨_, rfl, rfl⟩
      | some src =>
        simp only
        by_cases hp : comp.isPrefixOf src = true
        · simp only [if_pos hp]
          cases within start stop x.date with
          | error err => exact .inl ⟨_, rfl, rfl⟩
          | ok w =>
            cases w with
            | false => exact ih b e
            | true =>
              simp only
              cases acctType s x.cr with
              | error err => exact .inl ⟨_, rfl, rfl⟩
              | ok c =>
                simp only
                cases acctType s x.dt with
                | error err => exact .inl ⟨_, rfl, rfl⟩
                | ok d => exact ih _ _
        · simp only [if_neg hp]
          exact ih b e
  rcases key b b with ⟨x, h1, h2⟩ | ⟨x, y, h1, h2⟩
  · rw [h1, h2]
  · rw [h1, h2]; simp

/-! ## A concrete month -/

/-- Sales of 0.10, 0.20 and 0.30, bought for 0.15 and with a rent of 0.20. -/
def txsI : List RTx :=
  [mk 1 "/E" "Bank/Default" "Sales" (10/100), mk 2 "/E" "Cost of Sales" "Bank/Default" (15/100), mk 3 "/E" "Bank/Default" "Sales" (20/100),
   mk 4 "/E" "Expense" "Bank/Default" (20/100), mk 5 "/E" "Bank/Default" "Sales" (30/100)]

/-- The statement a call gives. -/
def gotI : Res Income → Income
  | .ok b => b
  | .error _ => ⟨[], []⟩

/-- The hypotheses of the theorems above are met by `txsI`; the floats are not the exact numbers. -/
example : (∀ x ∈ txsI, WholeCents x) ∧ List.Forall₂ (Recorded rnd64 (pow2 (-53)) 2) (txsI.map stored) txsI ∧
    incomeSumsF rnd64 gls "/E".toList (.date 1) (.date 9) (txsI.map stored) = .ok (gotI (incomeSumsF rnd64 gls "/E".toList (.date 1) (.date 9) (txsI.map stored))) ∧
    (4 * (txsI.filter (selected "/E".toList (.date 1) (.date 9))).length + 3 : ℕ) * totalAbs (txsI.filter (selected "/E".toList (.date 1) (.date 9))) ≤ 10000000000000 ∧
    (txsI.filter (selected "/E".toList (.date 1) (.date 9))).length = 5 ∧
    cents (grossF rnd64 (gotI (incomeSumsF rnd64 gls "/E".toList (.date 1) (.date 9) (txsI.map stored)))) = 45 ∧
    netPrinted rnd64 (gotI (incomeSumsF rnd64 gls "/E".toList (.date 1) (.date 9) (txsI.map stored))) = (false, 25) ∧
    netF rnd64 (gotI (incomeSumsF rnd64 gls "/E".toList (.date 1) (.date 9) (txsI.map stored))) ≠ 25 / 100 := by
  have hw : ∀ x ∈ txsI, WholeCents x := by
    intro x hx
    simp only [txsI, List.mem_cons, List.not_mem_nil, or_false] at hx
    rcases hx with rfl | rfl | rfl | rfl | rfl
    · exact ⟨10, rfl⟩
    · exact ⟨15, rfl⟩
    · exact ⟨20, rfl⟩
    · exact ⟨20, rfl⟩
    · exact ⟨30, rfl⟩
  refine ⟨hw, recorded_stored hw, ?_, by decide +kernel, by decide +kernel, by decide +kernel, by decide +kernel, by decide +kernel⟩
  cases hh : incomeSumsF rnd64 gls "/E".toList (.date 1) (.date 9) (txsI.map stored) with
  | ok b => rfl
  | error e => exact absurd (show (incomeSumsF rnd64 gls "/E".toList (.date 1) (.date 9) (txsI.map stored)).isOk = true by decide +kernel) (by rw [hh]; simp [Except.isOk, Except.toBool])

/-- A statement that is refused: the account is in no chart. -/
example : (incomeSumsF rnd64 gls "/E".toList (.date 1) (.date 9) [mk 1 "/E" "Bank/Default" "Sail" 1]).isOk = false := by decide +kernel

/-- Sales of 0.30 and expenses of 0.10 and 0.20. -/
def txsB : List RTx := [mk 1 "/E" "Bank/Default" "Sales" (30/100), mk 2 "/E" "Expense" "Bank/Default" (10/100), mk 3 "/E" "Expense" "Bank/Default" (20/100)]

/-- **C135 (violated).** A month that breaks even exactly may be printed as a loss: with sales of 0.30 and expenses of 0.10 and 0.20 the last row of the statement is `(0.00)`. -/
theorem C135_break_even_violated : ¬ ∀ (s : Structure) (comp : Str) (start stop : When) (ex : List RTx) (b e : Income), (∀ x ∈ ex, WholeCents x) →
    incomeSumsF rnd64 s comp start stop (ex.map stored) = .ok b → incomeSums s comp start stop ex = .ok e → dictSum e.income = dictSum e.expenses → (netPrinted rnd64 b).1 = false := by
  intro h
  have hw : ∀ x ∈ txsB, WholeCents x := by
    intro x hx
    simp only [txsB, List.mem_cons, List.not_mem_nil, or_false] at hx
    rcases hx with rfl | rfl | rfl
    · exact ⟨30, rfl⟩
    · exact ⟨10, rfl⟩
    · exact ⟨20, rfl⟩
  cases hh : incomeSumsF rnd64 gls "/E".toList (.date 1) (.date 9) (txsB.map stored) with
  | ok b =>
    cases he : incomeSums gls "/E".toList (.date 1) (.date 9) txsB with
    | ok e =>
      have z : dictSum (gotI (incomeSums gls "/E".toList (.date 1) (.date 9) txsB)).income = dictSum (gotI (incomeSums gls "/E".toList (.date 1) (.date 9) txsB)).expenses := by decide +kernel
      rw [he] at z
      have h1 := h _ _ _ _ txsB b e hw hh he z
      have h2 : (netPrinted rnd64 (gotI (incomeSumsF rnd64 gls "/E".toList (.date 1) (.date 9) (txsB.map stored)))).1 = true := by decide +kernel
      rw [hh] at h2
      exact absurd (h1.symm.trans h2) (by decide)
    | error e => exact absurd (show (incomeSums gls "/E".toList (.date 1) (.date 9) txsB).isOk = true by decide +kernel) (by rw [he]; simp [Except.isOk, Except.toBool])
  | error e => exact absurd (show (incomeSumsF rnd64 gls "/E".toList (.date 1) (.date 9) (txsB.map stored)).isOk = true by decide +kernel) (by rw [hh]; simp [Except.isOk, Except.toBool])

end Auxi.ReportsFloat.Props
