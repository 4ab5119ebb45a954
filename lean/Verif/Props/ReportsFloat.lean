import Verif.Proofs.ReportsFloat
import Verif.Props.Reports

/-!
# C118: reports in floating point

`rnd` is any rounding that satisfies `IEEE rnd u η`; `ieee64` says that Python's floats do, with `u = 2 ** -53`.
-/
namespace Auxi.ReportsFloat.Props
open Auxi Auxi.Reports Auxi.Reports.Spec Auxi.ReportsFloat Auxi.ReportsFloat.Spec Auxi.ReportsFloat.Proofs Auxi.Rounding Auxi.Ledger
open Auxi.Business hiding dictSum
open Auxi.Reports.Props (gls mk)

variable {rnd : ℚ → ℚ} {u η : ℚ}

/-! ## The same program -/

theorem addF_id : addF id = dictAdd := by
  funext k v d
  induction d with
  | nil => rfl
  | cons a d ih => obtain ⟨k', w⟩ := a; unfold addF dictAdd; rw [ih]; rfl

theorem creditF_id (b : Sheet) (ty : AccountType) (acc : Str) (a : ℚ) : creditF id b ty acc a = b.credit ty acc a := by
  unfold creditF Sheet.credit; rw [addF_id]; rfl

theorem debitF_id (b : Sheet) (ty : AccountType) (acc : Str) (a : ℚ) : debitF id b ty acc a = b.debit ty acc a := by
  unfold debitF Sheet.debit; rw [addF_id]; rfl

theorem foldl_id (l : List ℚ) : ∀ a : ℚ, l.foldl (fun a x => id (a + x)) a = a + l.sum := by
  induction l with
  | nil => intro a; simp
  | cons x l ih => intro a; simp only [List.foldl_cons, List.sum_cons]; rw [ih]; simp [add_assoc]

theorem sumF_eq (d : Dict Str) : sumF rnd d = listTotal rnd (d.map (·.2)) := by
  unfold sumF listTotal; rw [List.foldl_map]

/-- **C118 (same program).** Without rounding the sums are those of the model of C10 and C11. -/
theorem C118_same (s : Structure) (stop : When) (txs : List RTx) (b : Sheet) (l : List ℚ) :
    sheetSumsF id s stop txs = sheetSums s stop txs ∧ leftTotal id b = dictSum b.assets ∧ rightTotal id b = dictSum b.liabilities + dictSum b.equity ∧ listTotal id l = l.sum := by
  have hl : ∀ l : List ℚ, listTotal id l = l.sum := fun l => by unfold listTotal; rw [foldl_id, zero_add]
  refine ⟨?_, ?_, ?_, hl l⟩
  · unfold sheetSumsF sheetSums
    generalize (⟨[], [], []⟩ : Sheet) = b
    induction txs generalizing b with
    | nil => rfl
    | cons t ts ih => unfold sheetLoopF sheetLoop; simp only [creditF_id, debitF_id, ih]; rfl
  · unfold leftTotal; rw [sumF_eq, hl]; rfl
  · unfold rightTotal; rw [sumF_eq, sumF_eq, hl, hl]; rfl

example : (sheetSumsF id gls (.date 9) [mk 1 "/E" "Bank/Default" "Shareholders Loan" 7]).map (fun b => (leftTotal id b, rightTotal id b)) = .ok (7, 7) := by decide +kernel

/-! ## Errors -/

/-- **C118 (totals).** The sheet made with floats can be made with exact amounts too, and its two totals are within `K + 4 N + 1` roundings of the exact ones, measured by the sizes
of all amounts: `N` transactions up to the end date whose amounts were already rounded at most `K` times. -/
theorem C118_totals (R : IEEE rnd u η) (s : Structure) (stop : When) (K : ℕ) (txs ex : List RTx) (H : List.Forall₂ (Recorded rnd u K) txs ex)
    (b : Sheet) (h : sheetSumsF rnd s stop txs = .ok b) :
    ∃ e, sheetSums s stop ex = .ok e ∧
      |leftTotal rnd b - dictSum e.assets| + |rightTotal rnd b - (dictSum e.liabilities + dictSum e.equity)|
        ≤ slack u (K + 4 * (upTo stop ex).length + 1) * (2 * totalAbs (upTo stop ex)) := by
  obtain ⟨e, n, h1, h2, h3, h4, -⟩ := sheet_near R H h
  refine ⟨e, h1, (totals_near R h2 (J := K + 4 * (upTo stop ex).length + 1) (by omega)).trans ?_⟩
  exact mul_le_mul_of_nonneg_left h3 (slack_nonneg R.u0 _)

/-- **C118 (balance).** The difference of the totals is that of revenue and expense accounts, to within the roundings. -/
theorem C118_balance (R : IEEE rnd u η) (s : Structure) (stop : When) (K : ℕ) (txs ex : List RTx) (H : List.Forall₂ (Recorded rnd u K) txs ex)
    (b : Sheet) (h : sheetSumsF rnd s stop txs = .ok b) :
    |leftTotal rnd b - rightTotal rnd b - netCreditOf s isIncome (upTo stop ex)|
      ≤ slack u (K + 4 * (upTo stop ex).length + 1) * (2 * totalAbs (upTo stop ex)) := by
  obtain ⟨e, h1, h2⟩ := C118_totals R s stop K txs ex H b h
  refine le_trans ?_ h2
  rw [← Reports.Props.C10_balance s stop ex e h1]
  rw [show leftTotal rnd b - rightTotal rnd b - (dictSum e.assets - (dictSum e.liabilities + dictSum e.equity)) =
    (leftTotal rnd b - dictSum e.assets) - (rightTotal rnd b - (dictSum e.liabilities + dictSum e.equity)) by ring]
  exact abs_sub _ _

/-- **C118 (entries).** The same accounts are listed as with exact amounts, each within `K + 2 N` roundings of what was put to that account. -/
theorem C118_entries (R : IEEE rnd u η) (s : Structure) (stop : When) (K : ℕ) (txs ex : List RTx) (H : List.Forall₂ (Recorded rnd u K) txs ex)
    (b : Sheet) (h : sheetSumsF rnd s stop txs = .ok b) :
    ∃ e, sheetSums s stop ex = .ok e ∧ ∀ (p : Str) (d d' : Dict Str), (d, d') ∈ [(b.assets, e.assets), (b.liabilities, e.liabilities), (b.equity, e.equity)] →
      (lookup p d = none ∧ lookup p d' = none) ∨
      ∃ v x, lookup p d = some v ∧ lookup p d' = some x ∧ |v - x| ≤ slack u (K + 2 * (upTo stop ex).length) * turnover p (upTo stop ex) := by
  obtain ⟨e, n, h1, h2, -, -, h5⟩ := sheet_near R H h
  refine ⟨e, h1, ?_⟩
  intro p d d' hd
  have key : ∀ (d d' m : Dict Str), Near rnd u (K + 2 * (upTo stop ex).length) d d' m → size p m ≤ turnover p (upTo stop ex) →
      (lookup p d = none ∧ lookup p d' = none) ∨
      ∃ v x, lookup p d = some v ∧ lookup p d' = some x ∧ |v - x| ≤ slack u (K + 2 * (upTo stop ex).length) * turnover p (upTo stop ex) := by
    intro d d' m hn hs
    rcases near_lookup hn p with ⟨a, b, -⟩ | ⟨v, x, m', a, b, c, -, f, -⟩
    · exact Or.inl ⟨a, b⟩
    · refine Or.inr ⟨v, x, a, b, f.trans (mul_le_mul_of_nonneg_left ?_ (slack_nonneg R.u0 _))⟩
      unfold size at hs; rw [c] at hs; exact hs
  simp only [List.mem_cons, Prod.mk.injEq, List.not_mem_nil, or_false] at hd
  rcases hd with ⟨rfl, rfl⟩ | ⟨rfl, rfl⟩ | ⟨rfl, rfl⟩
  · exact key _ _ _ h2.assets (h5 p).1
  · exact key _ _ _ h2.liabilities (h5 p).2.1
  · exact key _ _ _ h2.equity (h5 p).2.2

/-- **C118 (transaction list).** The total of a transaction list. -/
theorem C118_list_total (R : IEEE rnd u η) (K : ℕ) (l ex : List RTx) (H : List.Forall₂ (Recorded rnd u K) l ex) :
    |listTotal rnd (l.map RTx.amount) - (ex.map RTx.amount).sum| ≤ slack u (K + l.length) * totalAbs ex := by
  have key : ∀ (J : ℕ), K ≤ J → ∀ a x m : ℚ, rnd a = a → |a - x| ≤ slack u J * m → |x| ≤ m →
      |(l.map RTx.amount).foldl (fun a x => rnd (a + x)) a - (x + (ex.map RTx.amount).sum)| ≤ slack u (J + l.length) * (m + totalAbs ex) := by
    induction H with
    | nil => intro J _ a x m _ h _; simpa [totalAbs] using h
    | @cons t y ts ys hr _ ih =>
      intro J hJ a x m h1 h2 h3
      have s := step_err R h1 hr.2.1 h2 (hr.2.2.trans (mul_le_mul_of_nonneg_right (slack_mono R.u0 hJ) (abs_nonneg _))) h3 (le_refl _)
      have := ih (J + 1) (by omega) _ _ _ (R.idem _) s ((abs_add_le _ _).trans (add_le_add h3 (le_refl _)))
      simp only [List.map_cons, List.foldl_cons, List.sum_cons, List.length_cons, totalAbs_cons]
      rw [show J + (ts.length + 1) = J + 1 + ts.length by omega, ← add_assoc, ← add_assoc]
      exact this
  have := key K (le_refl _) 0 0 0 R.zero (by simp) (by simp)
  simpa [listTotal] using this

/-! ## What is printed -/

theorem recorded_self {txs : List RTx} (h : ∀ t ∈ txs, rnd t.amount = t.amount) : List.Forall₂ (Recorded rnd u 0) txs txs := by
  induction txs with
  | nil => exact .nil
  | cons t ts ih => exact .cons ⟨rfl, h t List.mem_cons_self, by simp [slack_zero]⟩ (ih (fun x hx => h x (List.mem_cons_of_mem _ hx)))

/-- The error is below a bound `ε` if there are not too many transactions of not too large amounts. -/
theorem slack_lt {n : ℕ} {S ε : ℚ} (hn : n ≤ 2 ^ 49) (hS : 0 ≤ S) (h : n * S ≤ ε * 4000000000000000) (hε : 0 < ε) : slack (pow2 (-53)) n * (2 * S) < ε := by
  have hu : pow2 (-53) = 1 / 9007199254740992 := by decide +kernel
  have hn' : (n : ℚ) ≤ 562949953421312 := by exact_mod_cast hn
  have n0 : (0 : ℚ) ≤ n := Nat.cast_nonneg n
  have hnu : (n : ℚ) * pow2 (-53) ≤ 1 / 16 := by rw [hu]; linarith
  have a := slack_le (u := pow2 (-53)) (pow2_pos _).le (by rw [hu]; norm_num) n (by linarith)
  have b : slack (pow2 (-53)) n ≤ n * pow2 (-53) * (16 / 15) := by
    refine a.trans ?_
    rw [div_le_iff₀ (by linarith)]
    have : 0 ≤ (n : ℚ) * pow2 (-53) := mul_nonneg n0 (pow2_pos _).le
    nlinarith
  have c := mul_le_mul_of_nonneg_right b (show 0 ≤ 2 * S by linarith)
  rw [hu] at c ⊢
  have : (n : ℚ) * (1 / 9007199254740992) * (16 / 15) * (2 * S) = (n * S) * (32 / (15 * 9007199254740992)) := by ring
  linarith

theorem totalAbs_nonneg (l : List RTx) : 0 ≤ totalAbs l := by
  unfold totalAbs
  exact List.sum_nonneg (fun x hx => by obtain ⟨t, -, rfl⟩ := List.mem_map.mp hx; exact abs_nonneg _)

/-- **C118 (printed).** If revenue and expenses net to zero the two printed totals of a balance sheet differ by at most one cent, as long as the number of transactions and the sizes of
their amounts stay in bounds: for example 10000 transactions of a thousand million together. -/
theorem C118_printed (s : Structure) (stop : When) (txs : List RTx) (hf : ∀ t ∈ txs, rnd64 t.amount = t.amount) (b : Sheet) (h : sheetSumsF rnd64 s stop txs = .ok b)
    (h0 : netCreditOf s isIncome (upTo stop txs) = 0) (hn : 4 * (upTo stop txs).length + 1 ≤ 2 ^ 49)
    (hS : (4 * (upTo stop txs).length + 1 : ℕ) * totalAbs (upTo stop txs) ≤ 40000000000000) :
    |cents (leftTotal rnd64 b) - cents (rightTotal rnd64 b)| ≤ 1 := by
  apply cents_close
  have := C118_balance ieee64 s stop 0 txs txs (recorded_self hf) b h
  rw [h0, sub_zero, zero_add] at this
  refine lt_of_le_of_lt this (slack_lt hn (totalAbs_nonneg _) ?_ (by norm_num))
  linarith

/-- The machine's version of a transaction. -/
def stored (x : RTx) : RTx := { x with amount := rnd64 x.amount }

/-- The amount is a whole number of cents. -/
def WholeCents (x : RTx) : Prop := ∃ k : ℤ, x.amount = (k : ℚ) / 100

theorem recorded_stored {ex : List RTx} (h : ∀ x ∈ ex, WholeCents x) : List.Forall₂ (Recorded rnd64 (pow2 (-53)) 2) (ex.map stored) ex := by
  induction ex with
  | nil => exact .nil
  | cons x xs ih =>
    refine .cons ⟨rfl, ieee64.idem _, ?_⟩ (ih (fun y hy => h y (List.mem_cons_of_mem _ hy)))
    obtain ⟨k, hk⟩ := h x List.mem_cons_self
    have e := ieee64.err x.amount
    have hs : slack (pow2 (-53)) 2 = 2 * pow2 (-53) + pow2 (-53) * pow2 (-53) := by unfold slack; ring
    have p := pow2_pos (-53)
    have q : 0 ≤ pow2 (-53) * pow2 (-53) * |x.amount| := mul_nonneg (mul_pos p p).le (abs_nonneg _)
    show |rnd64 x.amount - x.amount| ≤ _
    by_cases hz : k = 0
    · have : x.amount = 0 := by rw [hk, hz]; simp
      rw [this, ieee64.zero]; simp
    · have hk1 : (1 : ℚ) ≤ |(k : ℚ)| := by exact_mod_cast Int.one_le_abs hz
      have hx : 1 / 100 ≤ |x.amount| := by rw [hk, abs_div]; norm_num; linarith
      have hη : pow2 (-1075) ≤ pow2 (-53) * (1 / 100) := by decide +kernel
      have := mul_le_mul_of_nonneg_left hx p.le
      rw [hs]; nlinarith

theorem netCredit_whole {p : Str} {ex : List RTx} (h : ∀ x ∈ ex, WholeCents x) : ∃ k : ℤ, netCredit p ex = (k : ℚ) / 100 := by
  induction ex with
  | nil => exact ⟨0, by simp [netCredit]⟩
  | cons x xs ih =>
    obtain ⟨j, hj⟩ := ih (fun y hy => h y (List.mem_cons_of_mem _ hy))
    obtain ⟨k, hk⟩ := h x List.mem_cons_self
    rw [netCredit_cons, hj, hk]
    exact ⟨(if x.cr = some p then k else 0) - (if x.dt = some p then k else 0) + j, by push_cast; split <;> split <;> ring⟩

theorem netCreditOf_whole {s : Structure} {P : AccountType → Bool} {ex : List RTx} (h : ∀ x ∈ ex, WholeCents x) : ∃ k : ℤ, netCreditOf s P ex = (k : ℚ) / 100 := by
  induction ex with
  | nil => exact ⟨0, by simp [netCreditOf]⟩
  | cons x xs ih =>
    obtain ⟨j, hj⟩ := ih (fun y hy => h y (List.mem_cons_of_mem _ hy))
    obtain ⟨k, hk⟩ := h x List.mem_cons_self
    rw [netCreditOf_cons, hj, hk]
    exact ⟨(if (typeOf? s x.cr).any P then k else 0) - (if (typeOf? s x.dt).any P then k else 0) + j, by push_cast; split <;> split <;> ring⟩

theorem turnover_le (p : Str) (l : List RTx) : turnover p l ≤ 2 * totalAbs l := by
  induction l with
  | nil => simp [turnover, totalAbs]
  | cons t ts ih =>
    rw [turnover_cons, totalAbs_cons]
    have := abs_nonneg t.amount
    split <;> split <;> linarith

theorem upTo_mem {stop : When} {ex : List RTx} {x : RTx} (h : x ∈ upTo stop ex) : x ∈ ex := List.mem_of_mem_filter h

/-- **C118 (whole cents).** If every amount is a whole number of cents, stored as the machine stores it, then in the same bounds every printed number of the balance sheet, entries and
totals, is exactly the true one; in particular the printed totals agree exactly when revenue and expenses net to zero. -/
theorem C118_whole_cents (s : Structure) (stop : When) (ex : List RTx) (hw : ∀ x ∈ ex, WholeCents x) (b : Sheet) (h : sheetSumsF rnd64 s stop (ex.map stored) = .ok b)
    (hn : 4 * (upTo stop ex).length + 3 ≤ 2 ^ 49) (hS : (4 * (upTo stop ex).length + 3 : ℕ) * totalAbs (upTo stop ex) ≤ 20000000000000) :
    ∃ e, sheetSums s stop ex = .ok e ∧
      (cents (leftTotal rnd64 b) : ℚ) = 100 * dictSum e.assets ∧ (cents (rightTotal rnd64 b) : ℚ) = 100 * (dictSum e.liabilities + dictSum e.equity) ∧
      (∀ (p : Str) (d d' : Dict Str), (d, d') ∈ [(b.assets, e.assets), (b.liabilities, e.liabilities), (b.equity, e.equity)] →
        (lookup p d).map (fun v => (cents v : ℚ)) = (lookup p d').map (fun x => 100 * x)) ∧
      (cents (leftTotal rnd64 b) = cents (rightTotal rnd64 b) ↔ netCreditOf s isIncome (upTo stop ex) = 0) := by
  have H := recorded_stored hw
  obtain ⟨e, h1, h2⟩ := C118_totals ieee64 s stop 2 _ ex H b h
  obtain ⟨e', h1', h3⟩ := C118_entries ieee64 s stop 2 _ ex H b h
  rw [h1] at h1'
  cases h1'
  have hw' : ∀ x ∈ upTo stop ex, WholeCents x := fun x hx => hw x (upTo_mem hx)
  have lt := slack_lt hn (totalAbs_nonneg (upTo stop ex)) (ε := 1 / 200) (by linarith) (by norm_num)
  rw [show 2 + 4 * (upTo stop ex).length + 1 = 4 * (upTo stop ex).length + 3 by omega] at h2
  have h4 := lt_of_le_of_lt h2 lt
  obtain ⟨i1, i2, i3, -⟩ := sheet_inv ex _ e h1
  have c1 : ∃ k : ℤ, dictSum e.assets = (k : ℚ) / 100 := by
    obtain ⟨k, hk⟩ := netCreditOf_whole (s := s) (P := fun x => x = .asset) hw'
    refine ⟨-k, ?_⟩
    rw [i1.sum]; simp only [dictSum, List.map_nil, List.sum_nil]; rw [hk]; push_cast; ring
  have c2 : ∃ k : ℤ, dictSum e.liabilities + dictSum e.equity = (k : ℚ) / 100 := by
    obtain ⟨k, hk⟩ := netCreditOf_whole (s := s) (P := fun x => x = .liability) hw'
    obtain ⟨j, hj⟩ := netCreditOf_whole (s := s) (P := fun x => x = .equity) hw'
    refine ⟨k + j, ?_⟩
    rw [i2.sum, i3.sum]; simp only [dictSum, List.map_nil, List.sum_nil]; rw [hk, hj]; push_cast; ring
  obtain ⟨k, hk⟩ := c1
  obtain ⟨j, hj⟩ := c2
  have a1 := abs_nonneg (leftTotal rnd64 b - dictSum e.assets)
  have a2 := abs_nonneg (rightTotal rnd64 b - (dictSum e.liabilities + dictSum e.equity))
  have d1 : cents (leftTotal rnd64 b) = k := cents_whole (by rw [← hk]; linarith)
  have d2 : cents (rightTotal rnd64 b) = j := cents_whole (by rw [← hj]; linarith)
  refine ⟨e, h1, ?_, ?_, ?_, ?_⟩
  · rw [d1, hk]; ring
  · rw [d2, hj]; ring
  · intro p d d' hd
    rcases h3 p d d' hd with ⟨a, b⟩ | ⟨v, x, a, b, c⟩
    · rw [a, b]; rfl
    · obtain ⟨m, hm⟩ := netCredit_whole (p := p) hw'
      have hx : ∃ m : ℤ, x = (m : ℚ) / 100 := by
        obtain ⟨l1, l2, l3, -⟩ := Reports.Props.C10_entries s stop ex e h1 p
        simp only [List.mem_cons, Prod.mk.injEq, List.not_mem_nil, or_false] at hd
        rcases hd with ⟨-, rfl⟩ | ⟨-, rfl⟩ | ⟨-, rfl⟩
        · rw [b] at l1; split at l1
          · cases l1; exact ⟨-m, by rw [hm]; push_cast; ring⟩
          · cases l1
        · rw [b] at l2; split at l2
          · cases l2; exact ⟨m, hm⟩
          · cases l2
        · rw [b] at l3; split at l3
          · cases l3; exact ⟨m, hm⟩
          · cases l3
      obtain ⟨m, rfl⟩ := hx
      have t := turnover_le p (upTo stop ex)
      have s1 := slack_mono (pow2_pos (-53)).le (show 2 + 2 * (upTo stop ex).length ≤ 4 * (upTo stop ex).length + 3 by omega)
      have s0 := slack_nonneg (pow2_pos (-53)).le (2 + 2 * (upTo stop ex).length)
      have : |v - (m : ℚ) / 100| < 1 / 200 := by
        refine lt_of_le_of_lt c (lt_of_le_of_lt ?_ lt)
        exact (mul_le_mul_of_nonneg_left t s0).trans (mul_le_mul_of_nonneg_right s1 (by have := totalAbs_nonneg (upTo stop ex); linarith))
      rw [a, b]
      simp only [Option.map_some, Option.some.injEq]
      rw [cents_whole this]; ring
  · rw [d1, d2, ← Reports.Props.C10_balances_iff s stop ex e h1, hk, hj]
    constructor
    · rintro rfl; rfl
    · intro hh
      have : (k : ℚ) = j := by linarith
      exact_mod_cast this

/-- Three payments into the bank: 0.10 from the shareholders' loan and 0.20 and 0.30 as retained earnings. -/
def txsC : List RTx :=
  [mk 1 "/E" "Bank/Default" "Shareholders Loan" (10/100), mk 2 "/E" "Bank/Default" "Retained Income/Retained Earnings" (20/100),
   mk 3 "/E" "Bank/Default" "Retained Income/Retained Earnings" (30/100)]

/-- The sheet a call gives. -/
def gotS : Res Sheet → Sheet
  | .ok b => b
  | .error _ => ⟨[], [], []⟩

example : (∀ x ∈ txsC, WholeCents x) ∧ sheetSumsF rnd64 gls (.date 9) (txsC.map stored) = .ok (gotS (sheetSumsF rnd64 gls (.date 9) (txsC.map stored))) ∧
    cents (leftTotal rnd64 (gotS (sheetSumsF rnd64 gls (.date 9) (txsC.map stored)))) = 60 ∧
    leftTotal rnd64 (gotS (sheetSumsF rnd64 gls (.date 9) (txsC.map stored))) ≠ rightTotal rnd64 (gotS (sheetSumsF rnd64 gls (.date 9) (txsC.map stored))) := by
  refine ⟨?_, ?_, by decide +kernel, by decide +kernel⟩
  · intro x hx
    simp only [txsC, List.mem_cons, List.not_mem_nil, or_false] at hx
    rcases hx with rfl | rfl | rfl
    · exact ⟨10, rfl⟩
    · exact ⟨20, rfl⟩
    · exact ⟨30, rfl⟩
  · cases hh : sheetSumsF rnd64 gls (.date 9) (txsC.map stored) with
    | ok b => rfl
    | error e => exact absurd (show (sheetSumsF rnd64 gls (.date 9) (txsC.map stored)).isOk = true by decide +kernel) (by rw [hh]; simp [Except.isOk, Except.toBool])

/-- A ledger in thousandths. -/
def txsV : List RTx :=
  [mk 1 "/E" "Bank/Default" "Shareholders Loan" (rnd64 (5/1000)), mk 2 "/E" "Bank/Default" "Retained Income/Retained Earnings" (rnd64 (10/1000)),
   mk 3 "/E" "Bank/Default" "Retained Income/Retained Earnings" (rnd64 (150/1000))]

/-- **C118 (violated).** A balance sheet that balances does not always print two equal totals: three payments of 0.005, 0.01 and 0.15 into the bank print assets of 0.16 against
liabilities and equity of 0.17. -/
theorem C118_balances_violated : ¬ ∀ (s : Structure) (stop : When) (txs : List RTx) (b : Sheet), (∀ t ∈ txs, rnd64 t.amount = t.amount) → sheetSumsF rnd64 s stop txs = .ok b →
    netCreditOf s isIncome (upTo stop txs) = 0 → cents (leftTotal rnd64 b) = cents (rightTotal rnd64 b) := by
  intro h
  cases hh : sheetSumsF rnd64 gls (.date 9) txsV with
  | ok b =>
    have h1 := h gls (.date 9) txsV b (by decide +kernel) hh (by decide +kernel)
    have h2 : (cents (leftTotal rnd64 (gotS (sheetSumsF rnd64 gls (.date 9) txsV))), cents (rightTotal rnd64 (gotS (sheetSumsF rnd64 gls (.date 9) txsV)))) = (16, 17) := by
      decide +kernel
    rw [hh] at h2
    simp only [gotS, Prod.mk.injEq] at h2
    rw [h2.1, h2.2] at h1
    exact absurd h1 (by decide)
  | error e => exact absurd (show (sheetSumsF rnd64 gls (.date 9) txsV).isOk = true by decide +kernel) (by rw [hh]; simp [Except.isOk, Except.toBool])

example : (4 * (upTo (.date 9) txsV).length + 1 : ℕ) * totalAbs (upTo (.date 9) txsV) ≤ 40000000000000 := by decide +kernel

/-! ## Whole units -/

/-- All values are multiples of the unit `2 ** e`, and together no larger than `B`. -/
def Mult (e : ℤ) (d : Dict Str) : Prop := ∀ x ∈ d, ∃ k : ℤ, x.2 = (k : ℚ) * pow2 e

/-- The sizes of the values together. -/
def absSum (d : Dict Str) : ℚ := (d.map (fun x => |x.2|)).sum

theorem absSum_nonneg (d : Dict Str) : 0 ≤ absSum d := by
  unfold absSum
  exact List.sum_nonneg (fun x hx => by obtain ⟨t, -, rfl⟩ := List.mem_map.mp hx; exact abs_nonneg _)

theorem rnd64_mult_small {e k : ℤ} (he : -1074 ≤ e) (h : |(k : ℚ) * pow2 e| ≤ 2 ^ 53 * pow2 e) : rnd64 ((k : ℚ) * pow2 e) = (k : ℚ) * pow2 e := by
  apply rnd64_isF
  refine ⟨k, e, ?_, he, rfl⟩
  have p := pow2_pos e
  rw [abs_mul, abs_of_pos p] at h
  have := le_of_mul_le_mul_right h p
  exact_mod_cast this

theorem addF_exact {e : ℤ} (he : -1074 ≤ e) {k : Str} {a : ℚ} (ha : ∃ j : ℤ, a = (j : ℚ) * pow2 e) (d : Dict Str) (hd : Mult e d) (hB : absSum d + |a| ≤ 2 ^ 53 * pow2 e) :
    addF rnd64 k a d = dictAdd k a d ∧ Mult e (dictAdd k a d) ∧ absSum (dictAdd k a d) ≤ absSum d + |a| := by
  induction d with
  | nil =>
    refine ⟨rfl, ?_, ?_⟩
    · intro x hx; simp only [dictAdd, List.mem_singleton] at hx; rw [hx]; exact ha
    · simp [absSum, dictAdd]
  | cons c d ih =>
    obtain ⟨k', w⟩ := c
    have hd' : Mult e d := fun x hx => hd x (List.mem_cons_of_mem _ hx)
    obtain ⟨j, hj⟩ := ha
    obtain ⟨i, hi⟩ := hd (k', w) List.mem_cons_self
    have hi : w = (i : ℚ) * pow2 e := hi
    have n0 := absSum_nonneg d
    have hs : absSum ((k', w) :: d) = |w| + absSum d := by simp [absSum]
    rw [hs] at hB
    unfold addF dictAdd
    by_cases hk : k' = k
    · simp only [if_pos hk]
      have hwa : w + a = ((i + j : ℤ) : ℚ) * pow2 e := by rw [hi, hj]; push_cast; ring
      have t := abs_add_le w a
      refine ⟨?_, ?_, ?_⟩
      · rw [hwa, rnd64_mult_small he]
        rw [← hwa]; linarith
      · intro x hx
        rcases List.mem_cons.mp hx with rfl | hx
        · exact ⟨i + j, hwa⟩
        · exact hd' x hx
      · rw [hs]; show absSum ((k', w + a) :: d) ≤ _
        simp only [absSum, List.map_cons, List.sum_cons]; linarith
    · simp only [if_neg hk]
      obtain ⟨h1, h2, h3⟩ := ih hd' (by linarith [abs_nonneg w])
      refine ⟨by rw [h1], ?_, ?_⟩
      · intro x hx
        rcases List.mem_cons.mp hx with rfl | hx
        · exact ⟨i, hi⟩
        · exact h2 x hx
      · rw [hs]; simp only [absSum, List.map_cons, List.sum_cons] at h3 ⊢; linarith

/-- All three parts of a sheet. -/
structure MultS (e : ℤ) (b : Sheet) : Prop where
  a : Mult e b.assets
  l : Mult e b.liabilities
  q : Mult e b.equity

/-- All three parts. -/
def absS (b : Sheet) : ℚ := absSum b.assets + absSum b.liabilities + absSum b.equity

theorem creditF_exact {e : ℤ} (he : -1074 ≤ e) (ty : AccountType) (acc : Str) {a : ℚ} (ha : ∃ j : ℤ, a = (j : ℚ) * pow2 e) (b : Sheet) (hb : MultS e b)
    (hB : absS b + |a| ≤ 2 ^ 53 * pow2 e) :
    creditF rnd64 b ty acc a = b.credit ty acc a ∧ MultS e (b.credit ty acc a) ∧ absS (b.credit ty acc a) ≤ absS b + |a| := by
  have n1 := absSum_nonneg b.assets
  have n2 := absSum_nonneg b.liabilities
  have n3 := absSum_nonneg b.equity
  have n4 := abs_nonneg a
  have ha' : ∃ j : ℤ, -a = (j : ℚ) * pow2 e := by obtain ⟨j, hj⟩ := ha; exact ⟨-j, by rw [hj]; push_cast; ring⟩
  unfold absS at hB
  cases ty
  · obtain ⟨h1, h2, h3⟩ := addF_exact he (k := acc) ha' b.assets hb.a (by rw [abs_neg]; linarith)
    rw [abs_neg] at h3
    exact ⟨by simp only [creditF, Sheet.credit, h1], ⟨h2, hb.l, hb.q⟩, by simp only [Sheet.credit, absS]; linarith⟩
  · obtain ⟨h1, h2, h3⟩ := addF_exact he (k := acc) ha b.equity hb.q (by linarith)
    exact ⟨by simp only [creditF, Sheet.credit, h1], ⟨hb.a, hb.l, h2⟩, by simp only [Sheet.credit, absS]; linarith⟩
  · exact ⟨rfl, hb, by simp only [Sheet.credit]; linarith⟩
  · obtain ⟨h1, h2, h3⟩ := addF_exact he (k := acc) ha b.liabilities hb.l (by linarith)
    exact ⟨by simp only [creditF, Sheet.credit, h1], ⟨hb.a, h2, hb.q⟩, by simp only [Sheet.credit, absS]; linarith⟩
  · exact ⟨rfl, hb, by simp only [Sheet.credit]; linarith⟩

theorem debitF_exact {e : ℤ} (he : -1074 ≤ e) (ty : AccountType) (acc : Str) {a : ℚ} (ha : ∃ j : ℤ, a = (j : ℚ) * pow2 e) (b : Sheet) (hb : MultS e b)
    (hB : absS b + |a| ≤ 2 ^ 53 * pow2 e) :
    debitF rnd64 b ty acc a = b.debit ty acc a ∧ MultS e (b.debit ty acc a) ∧ absS (b.debit ty acc a) ≤ absS b + |a| := by
  have n1 := absSum_nonneg b.assets
  have n2 := absSum_nonneg b.liabilities
  have n3 := absSum_nonneg b.equity
  have n4 := abs_nonneg a
  have ha' : ∃ j : ℤ, -a = (j : ℚ) * pow2 e := by obtain ⟨j, hj⟩ := ha; exact ⟨-j, by rw [hj]; push_cast; ring⟩
  unfold absS at hB
  cases ty
  · obtain ⟨h1, h2, h3⟩ := addF_exact he (k := acc) ha b.assets hb.a (by linarith)
    exact ⟨by simp only [debitF, Sheet.debit, h1], ⟨h2, hb.l, hb.q⟩, by simp only [Sheet.debit, absS]; linarith⟩
  · obtain ⟨h1, h2, h3⟩ := addF_exact he (k := acc) ha' b.equity hb.q (by rw [abs_neg]; linarith)
    rw [abs_neg] at h3
    exact ⟨by simp only [debitF, Sheet.debit, h1], ⟨hb.a, hb.l, h2⟩, by simp only [Sheet.debit, absS]; linarith⟩
  · exact ⟨rfl, hb, by simp only [Sheet.debit]; linarith⟩
  · obtain ⟨h1, h2, h3⟩ := addF_exact he (k := acc) ha' b.liabilities hb.l (by rw [abs_neg]; linarith)
    rw [abs_neg] at h3
    exact ⟨by simp only [debitF, Sheet.debit, h1], ⟨hb.a, h2, hb.q⟩, by simp only [Sheet.debit, absS]; linarith⟩
  · exact ⟨rfl, hb, by simp only [Sheet.debit]; linarith⟩

theorem sum_exact {e : ℤ} (he : -1074 ≤ e) : ∀ (d : Dict Str), Mult e d → ∀ a : ℚ, (∃ j : ℤ, a = (j : ℚ) * pow2 e) → |a| + absSum d ≤ 2 ^ 53 * pow2 e →
    d.foldl (fun a e => rnd64 (a + e.2)) a = a + dictSum d ∧ (∃ j : ℤ, a + dictSum d = (j : ℚ) * pow2 e) ∧ |a + dictSum d| ≤ |a| + absSum d := by
  intro d
  induction d with
  | nil => intro _ a ha _; simpa [dictSum, absSum] using ha
  | cons c d ih =>
    intro hd a ha hB
    obtain ⟨k', w⟩ := c
    obtain ⟨j, hj⟩ := ha
    obtain ⟨i, hi⟩ := hd (k', w) List.mem_cons_self
    have hi : w = (i : ℚ) * pow2 e := hi
    have hs : absSum ((k', w) :: d) = |w| + absSum d := by simp [absSum]
    have hd' : dictSum ((k', w) :: d) = w + dictSum d := by simp [dictSum]
    rw [hs] at hB ⊢
    rw [hd', List.foldl_cons]
    have n0 := absSum_nonneg d
    have hwa : a + w = ((j + i : ℤ) : ℚ) * pow2 e := by rw [hi, hj]; push_cast; ring
    have t := abs_add_le a w
    have r : rnd64 (a + w) = a + w := by rw [hwa]; apply rnd64_mult_small he; rw [← hwa]; linarith
    simp only [r]
    obtain ⟨h1, h2, h3⟩ := ih (fun x hx => hd x (List.mem_cons_of_mem _ hx)) (a + w) ⟨j + i, hwa⟩ (by linarith)
    rw [← add_assoc]
    exact ⟨h1, h2, by linarith⟩

/-- **C118 (whole units).** If every amount is a multiple of some power of two (1 for whole numbers) and the amounts together are at most `2 ** 52` of these, the floats are exact: the
sheet is the exact one, and it balances exactly if revenue and expenses net to zero. -/
theorem C118_whole_units (s : Structure) (stop : When) (txs : List RTx) (e : ℤ) (he : -1074 ≤ e) (hw : ∀ t ∈ upTo stop txs, ∃ k : ℤ, t.amount = (k : ℚ) * pow2 e)
    (hS : totalAbs (upTo stop txs) ≤ 2 ^ 52 * pow2 e) :
    sheetSumsF rnd64 s stop txs = sheetSums s stop txs ∧
    ∀ b, sheetSums s stop txs = .ok b → leftTotal rnd64 b = dictSum b.assets ∧ rightTotal rnd64 b = dictSum b.liabilities + dictSum b.equity ∧
      (leftTotal rnd64 b = rightTotal rnd64 b ↔ netCreditOf s isIncome (upTo stop txs) = 0) := by
  have loop : ∀ (txs : List RTx) (b : Sheet), (∀ t ∈ upTo stop txs, ∃ k : ℤ, t.amount = (k : ℚ) * pow2 e) → MultS e b →
      absS b + 2 * totalAbs (upTo stop txs) ≤ 2 ^ 53 * pow2 e →
      sheetLoopF rnd64 s stop b txs = sheetLoop s stop b txs ∧
      ∀ b', sheetLoop s stop b txs = .ok b' → MultS e b' ∧ absS b' ≤ absS b + 2 * totalAbs (upTo stop txs) := by
    intro txs
    induction txs with
    | nil =>
      intro b _ hb hB
      refine ⟨rfl, ?_⟩
      intro b' h
      simp only [sheetLoop, Except.ok.injEq] at h
      subst h
      exact ⟨hb, by simp [upTo, totalAbs]⟩
    | cons t ts ih =>
      intro b hw hb hB
      unfold sheetLoopF sheetLoop
      rw [upTo_cons] at hw hB ⊢
      cases hle : t.date.le stop with
      | error x => exact ⟨rfl, fun _ h => nomatch h⟩
      | ok r =>
        rw [le_notAfter hle] at hw hB ⊢
        cases r with
        | false => exact ih b hw hb hB
        | true =>
          rw [if_pos rfl] at hw hB ⊢
          rw [totalAbs_cons] at hB ⊢
          have ha := hw t List.mem_cons_self
          have n0 := totalAbs_nonneg (upTo stop ts)
          have n1 := abs_nonneg t.amount
          cases hc : acctType s t.cr with
          | error x => exact ⟨rfl, fun _ h => nomatch h⟩
          | ok cty =>
            cases hd : acctType s t.dt with
            | error x => exact ⟨rfl, fun _ h => nomatch h⟩
            | ok dty =>
              obtain ⟨c1, c2, c3⟩ := creditF_exact he cty (t.cr.getD []) ha b hb (by linarith)
              obtain ⟨d1, d2, d3⟩ := debitF_exact he dty (t.dt.getD []) ha _ c2 (by linarith)
              obtain ⟨i1, i2⟩ := ih _ (fun x hx => hw x (List.mem_cons_of_mem _ hx)) d2 (by linarith)
              refine ⟨?_, ?_⟩
              · show sheetLoopF rnd64 s stop (debitF rnd64 (creditF rnd64 b cty (t.cr.getD []) t.amount) dty (t.dt.getD []) t.amount) ts = _
                rw [c1, d1, i1]
              · intro b' hb'
                obtain ⟨j1, j2⟩ := i2 b' hb'
                exact ⟨j1, by linarith⟩
  have z : MultS e ⟨[], [], []⟩ := ⟨(fun _ h => nomatch h), (fun _ h => nomatch h), (fun _ h => nomatch h)⟩
  have hB : absS ⟨[], [], []⟩ + 2 * totalAbs (upTo stop txs) ≤ 2 ^ 53 * pow2 e := by
    have : absS ⟨[], [], []⟩ = 0 := by simp [absS, absSum]
    rw [this]; linarith
  obtain ⟨h1, h2⟩ := loop txs ⟨[], [], []⟩ hw z hB
  refine ⟨h1, ?_⟩
  intro b hb
  obtain ⟨m, n⟩ := h2 b hb
  have n := n.trans hB
  have n1 := absSum_nonneg b.assets
  have n2 := absSum_nonneg b.liabilities
  have n3 := absSum_nonneg b.equity
  unfold absS at n
  have z0 : ∃ j : ℤ, (0 : ℚ) = (j : ℚ) * pow2 e := ⟨0, by simp⟩
  obtain ⟨a1, -, -⟩ := sum_exact he b.assets m.a 0 z0 (by rw [abs_zero]; linarith)
  obtain ⟨l1, ⟨j, l2⟩, l3⟩ := sum_exact he b.liabilities m.l 0 z0 (by rw [abs_zero]; linarith)
  obtain ⟨q1, ⟨i, q2⟩, q3⟩ := sum_exact he b.equity m.q 0 z0 (by rw [abs_zero]; linarith)
  rw [abs_zero, zero_add, zero_add] at l3 q3
  rw [zero_add] at a1 l1 l2 q1 q2
  have e1 : leftTotal rnd64 b = dictSum b.assets := a1
  have e2 : rightTotal rnd64 b = dictSum b.liabilities + dictSum b.equity := by
    show rnd64 (sumF rnd64 b.liabilities + sumF rnd64 b.equity) = _
    rw [show sumF rnd64 b.liabilities = dictSum b.liabilities from l1, show sumF rnd64 b.equity = dictSum b.equity from q1]
    have : dictSum b.liabilities + dictSum b.equity = ((j + i : ℤ) : ℚ) * pow2 e := by rw [l2, q2]; push_cast; ring
    have t := abs_add_le (dictSum b.liabilities) (dictSum b.equity)
    rw [this, rnd64_mult_small he]
    rw [← this]; linarith
  refine ⟨e1, e2, ?_⟩
  rw [e1, e2]
  exact Reports.Props.C10_balances_iff s stop txs b hb

example : (∀ t ∈ upTo (.date 8) Reports.Props.txs0, ∃ k : ℤ, t.amount = (k : ℚ) * pow2 0) ∧ totalAbs (upTo (.date 8) Reports.Props.txs0) ≤ 2 ^ 52 * pow2 0 := by
  refine ⟨?_, by decide +kernel⟩
  intro t ht
  have : t.amount = 1000 ∨ t.amount = 30 ∨ t.amount = 10 ∨ t.amount = 1 := by
    have : ∀ t ∈ upTo (.date 8) Reports.Props.txs0, t.amount = 1000 ∨ t.amount = 30 ∨ t.amount = 10 ∨ t.amount = 1 := by decide +kernel
    exact this t ht
  rcases this with h | h | h | h
  · exact ⟨1000, by rw [h]; decide +kernel⟩
  · exact ⟨30, by rw [h]; decide +kernel⟩
  · exact ⟨10, by rw [h]; decide +kernel⟩
  · exact ⟨1, by rw [h]; decide +kernel⟩

end Auxi.ReportsFloat.Props
