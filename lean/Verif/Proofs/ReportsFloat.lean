import Verif.Spec.ReportsFloat
import Verif.Proofs.Rounding
import Verif.Proofs.ChemFloat
import Verif.Proofs.Reports

/-!
# Lemmas for reports in floating point
-/
namespace Auxi.ReportsFloat.Proofs
open Auxi Auxi.Reports Auxi.Reports.Spec Auxi.ReportsFloat Auxi.ReportsFloat.Spec Auxi.Rounding Auxi.Ledger
open Auxi.Business hiding dictSum

variable {rnd : ℚ → ℚ} {u η : ℚ}

theorem slack_nonneg (h : 0 ≤ u) (K : ℕ) : 0 ≤ slack u K := by
  have := one_le_pow₀ (M₀ := ℚ) (a := 1 + u) (n := K) (by linarith)
  unfold slack; linarith

theorem slack_mono (h : 0 ≤ u) {K J : ℕ} (hK : K ≤ J) : slack u K ≤ slack u J := by
  have := pow_le_pow_right₀ (a := 1 + u) (by linarith) hK
  unfold slack; linarith

theorem slack_zero : slack u 0 = 0 := by simp [slack]

theorem slack_succ (K : ℕ) : slack u (K + 1) = slack u K + u * (1 + slack u K) := by
  unfold slack; ring

/-- One rounded addition of two numbers that are each off by at most `K` roundings. -/
theorem step_err (R : IEEE rnd u η) {v w x y m n : ℚ} {K : ℕ} (hv : rnd v = v) (hw : rnd w = w) (h1 : |v - x| ≤ slack u K * m) (h2 : |w - y| ≤ slack u K * n)
    (hx : |x| ≤ m) (hy : |y| ≤ n) : |rnd (v + w) - (x + y)| ≤ slack u (K + 1) * (m + n) := by
  have u0 := R.u0
  have a := R.add hv hw
  have b : |v + w| ≤ (1 + slack u K) * (m + n) := by
    have : v + w = (v - x) + (w - y) + (x + y) := by ring
    rw [this]
    have t1 := abs_add_le ((v - x) + (w - y)) (x + y)
    have t2 := abs_add_le (v - x) (w - y)
    have t3 := abs_add_le x y
    nlinarith
  have c : rnd (v + w) - (x + y) = (rnd (v + w) - (v + w)) + ((v - x) + (w - y)) := by ring
  rw [c, slack_succ]
  have t1 := abs_add_le (rnd (v + w) - (v + w)) ((v - x) + (w - y))
  have t2 := abs_add_le (v - x) (w - y)
  have t3 := mul_le_mul_of_nonneg_left b u0
  nlinarith

/-- Dictionaries with the same keys; each value of the first is a float within `K` roundings of that of the second, the sizes being bounded by the third. -/
inductive Near (rnd : ℚ → ℚ) (u : ℚ) (K : ℕ) : Dict Str → Dict Str → Dict Str → Prop
  | nil : Near rnd u K [] [] []
  | cons {k : Str} {v x m : ℚ} {d e n : Dict Str} : rnd v = v → |v - x| ≤ slack u K * m → |x| ≤ m → Near rnd u K d e n → Near rnd u K ((k, v) :: d) ((k, x) :: e) ((k, m) :: n)

theorem near_mono (h : 0 ≤ u) {K J : ℕ} (hK : K ≤ J) {d e n : Dict Str} (H : Near rnd u K d e n) : Near rnd u J d e n := by
  induction H with
  | nil => exact .nil
  | cons a b c _ ih => exact .cons a (b.trans (mul_le_mul_of_nonneg_right (slack_mono h hK) ((abs_nonneg _).trans c))) c ih

theorem near_add (R : IEEE rnd u η) {K : ℕ} {k : Str} {a x m : ℚ} (ha : rnd a = a) (hx : |a - x| ≤ slack u K * m) (hm : |x| ≤ m) {d e n : Dict Str} (H : Near rnd u K d e n) :
    Near rnd u (K + 1) (addF rnd k a d) (dictAdd k x e) (dictAdd k m n) := by
  induction H with
  | nil =>
    exact .cons ha (hx.trans (mul_le_mul_of_nonneg_right (slack_mono R.u0 (Nat.le_succ K)) ((abs_nonneg _).trans hm))) hm .nil
  | @cons k' v y l d e n h1 h2 h3 h4 ih =>
    unfold addF dictAdd
    by_cases hk : k' = k
    · simp only [if_pos hk]
      refine .cons (R.idem _) (step_err R h1 ha h2 hx h3 hm) ?_ (near_mono R.u0 (Nat.le_succ K) h4)
      exact (abs_add_le _ _).trans (add_le_add h3 hm)
    · simp only [if_neg hk]
      exact .cons h1 (h2.trans (mul_le_mul_of_nonneg_right (slack_mono R.u0 (Nat.le_succ K)) ((abs_nonneg _).trans h3))) h3 ih

theorem addF_length (k : Str) (v : ℚ) (d : Dict Str) : (addF rnd k v d).length ≤ d.length + 1 := by
  induction d with
  | nil => simp [addF]
  | cons a d ih => obtain ⟨k', w⟩ := a; unfold addF; split <;> simp <;> omega

theorem near_fold (R : IEEE rnd u η) {K : ℕ} {d e n : Dict Str} (H : Near rnd u K d e n) : ∀ (J : ℕ), K ≤ J → ∀ a x m : ℚ, rnd a = a → |a - x| ≤ slack u J * m → |x| ≤ m →
    rnd (d.foldl (fun a e => rnd (a + e.2)) a) = d.foldl (fun a e => rnd (a + e.2)) a ∧
    |d.foldl (fun a e => rnd (a + e.2)) a - (x + dictSum e)| ≤ slack u (J + d.length) * (m + dictSum n) ∧ |x + dictSum e| ≤ m + dictSum n := by
  induction H with
  | nil => intro J _ a x m h1 h2 h3; simpa [dictSum] using ⟨h1, h2, h3⟩
  | @cons k v y l d e n h1 h2 h3 h4 ih =>
    intro J hJ a x m g1 g2 g3
    have s := step_err R g1 h1 g2 (h2.trans (mul_le_mul_of_nonneg_right (slack_mono R.u0 hJ) ((abs_nonneg _).trans h3))) g3 h3
    have := ih (J + 1) (by omega) (rnd (a + v)) (x + y) (m + l) (R.idem _) s ((abs_add_le _ _).trans (add_le_add g3 h3))
    simp only [List.foldl_cons, List.length_cons, dictSum, List.map_cons, List.sum_cons] at this ⊢
    rw [show J + (d.length + 1) = J + 1 + d.length by omega, ← add_assoc, ← add_assoc]
    exact this

theorem near_sum (R : IEEE rnd u η) {K : ℕ} {d e n : Dict Str} (H : Near rnd u K d e n) :
    rnd (sumF rnd d) = sumF rnd d ∧ |sumF rnd d - dictSum e| ≤ slack u (K + d.length) * dictSum n ∧ |dictSum e| ≤ dictSum n := by
  have := near_fold R H K (le_refl _) 0 0 0 R.zero (by simp) (by simp)
  simpa [sumF] using this

theorem near_lookup {K : ℕ} {d e n : Dict Str} (H : Near rnd u K d e n) (p : Str) :
    (lookup p d = none ∧ lookup p e = none ∧ lookup p n = none) ∨
    ∃ v x m, lookup p d = some v ∧ lookup p e = some x ∧ lookup p n = some m ∧ rnd v = v ∧ |v - x| ≤ slack u K * m ∧ |x| ≤ m := by
  induction H with
  | nil => exact Or.inl ⟨rfl, rfl, rfl⟩
  | @cons k v y l d e n h1 h2 h3 h4 ih =>
    simp only [lookup_cons]
    by_cases hk : k = p
    · simp only [if_pos hk]
      exact Or.inr ⟨v, y, l, rfl, rfl, rfl, h1, h2, h3⟩
    · simp only [if_neg hk]
      exact ih

/-! ### whole sheets -/

/-- `Near` for the three parts. -/
structure SheetNear (rnd : ℚ → ℚ) (u : ℚ) (K : ℕ) (b e n : Sheet) : Prop where
  assets : Near rnd u K b.assets e.assets n.assets
  liabilities : Near rnd u K b.liabilities e.liabilities n.liabilities
  equity : Near rnd u K b.equity e.equity n.equity

/-- The sizes put to an account. -/
def addM (b : Sheet) (ty : AccountType) (acc : Str) (m : ℚ) : Sheet :=
  match ty with
  | .asset => { b with assets := dictAdd acc m b.assets }
  | .liability => { b with liabilities := dictAdd acc m b.liabilities }
  | .equity => { b with equity := dictAdd acc m b.equity }
  | _ => b

/-- All three parts. -/
def tot (b : Sheet) : ℚ := dictSum b.assets + dictSum b.liabilities + dictSum b.equity

/-- Number of entries. -/
def cnt (b : Sheet) : ℕ := b.assets.length + b.liabilities.length + b.equity.length

theorem near_credit (R : IEEE rnd u η) {K : ℕ} {b e n : Sheet} (H : SheetNear rnd u K b e n) (ty : AccountType) (acc : Str) {a x m : ℚ} (ha : rnd a = a)
    (hx : |a - x| ≤ slack u K * m) (hm : |x| ≤ m) : SheetNear rnd u (K + 1) (creditF rnd b ty acc a) (e.credit ty acc x) (addM n ty acc m) := by
  have u0 := R.u0
  obtain ⟨h1, h2, h3⟩ := H
  have g1 := near_mono u0 (Nat.le_succ K) h1
  have g2 := near_mono u0 (Nat.le_succ K) h2
  have g3 := near_mono u0 (Nat.le_succ K) h3
  have ha' : rnd (-a) = -a := by rw [R.neg, ha]
  have hx' : |-a - -x| ≤ slack u K * m := by rw [show -a - -x = -(a - x) by ring, abs_neg]; exact hx
  have hm' : |-x| ≤ m := by rwa [abs_neg]
  cases ty
  · exact ⟨near_add R ha' hx' hm' h1, g2, g3⟩
  · exact ⟨g1, g2, near_add R ha hx hm h3⟩
  · exact ⟨g1, g2, g3⟩
  · exact ⟨g1, near_add R ha hx hm h2, g3⟩
  · exact ⟨g1, g2, g3⟩

theorem near_debit (R : IEEE rnd u η) {K : ℕ} {b e n : Sheet} (H : SheetNear rnd u K b e n) (ty : AccountType) (acc : Str) {a x m : ℚ} (ha : rnd a = a)
    (hx : |a - x| ≤ slack u K * m) (hm : |x| ≤ m) : SheetNear rnd u (K + 1) (debitF rnd b ty acc a) (e.debit ty acc x) (addM n ty acc m) := by
  have u0 := R.u0
  obtain ⟨h1, h2, h3⟩ := H
  have g1 := near_mono u0 (Nat.le_succ K) h1
  have g2 := near_mono u0 (Nat.le_succ K) h2
  have g3 := near_mono u0 (Nat.le_succ K) h3
  have ha' : rnd (-a) = -a := by rw [R.neg, ha]
  have hx' : |-a - -x| ≤ slack u K * m := by rw [show -a - -x = -(a - x) by ring, abs_neg]; exact hx
  have hm' : |-x| ≤ m := by rwa [abs_neg]
  cases ty
  · exact ⟨near_add R ha hx hm h1, g2, g3⟩
  · exact ⟨g1, g2, near_add R ha' hx' hm' h3⟩
  · exact ⟨g1, g2, g3⟩
  · exact ⟨g1, near_add R ha' hx' hm' h2, g3⟩
  · exact ⟨g1, g2, g3⟩

theorem tot_addM (b : Sheet) (ty : AccountType) (acc : Str) {m : ℚ} (hm : 0 ≤ m) : tot (addM b ty acc m) ≤ tot b + m := by
  cases ty <;> simp only [addM, tot, dictSum_dictAdd] <;> linarith

theorem cnt_creditF (b : Sheet) (ty : AccountType) (acc : Str) (a : ℚ) : cnt (creditF rnd b ty acc a) ≤ cnt b + 1 := by
  cases ty <;> simp only [creditF, cnt]
  · have := addF_length (rnd := rnd) acc (-a) b.assets; omega
  · have := addF_length (rnd := rnd) acc a b.equity; omega
  · omega
  · have := addF_length (rnd := rnd) acc a b.liabilities; omega
  · omega

theorem cnt_debitF (b : Sheet) (ty : AccountType) (acc : Str) (a : ℚ) : cnt (debitF rnd b ty acc a) ≤ cnt b + 1 := by
  cases ty <;> simp only [debitF, cnt]
  · have := addF_length (rnd := rnd) acc a b.assets; omega
  · have := addF_length (rnd := rnd) acc (-a) b.equity; omega
  · omega
  · have := addF_length (rnd := rnd) acc (-a) b.liabilities; omega
  · omega

/-- The sizes of an account in a dictionary of sizes. -/
def size (p : Str) (d : Dict Str) : ℚ := (lookup p d).getD 0

theorem size_dictAdd (p k : Str) (m : ℚ) (d : Dict Str) : size p (dictAdd k m d) = size p d + (if k = p then m else 0) := by
  unfold size
  rw [lookup_dictAdd]
  by_cases h : p = k
  · simp [h]
  · simp [h, Ne.symm h]

theorem size_addM (b : Sheet) (ty : AccountType) (acc p : Str) {m : ℚ} (hm : 0 ≤ m) :
    size p (addM b ty acc m).assets ≤ size p b.assets + (if acc = p then m else 0) ∧
    size p (addM b ty acc m).liabilities ≤ size p b.liabilities + (if acc = p then m else 0) ∧
    size p (addM b ty acc m).equity ≤ size p b.equity + (if acc = p then m else 0) := by
  have h : 0 ≤ (if acc = p then m else 0) := by split <;> simp [hm]
  cases ty <;> simp only [addM, size_dictAdd] <;> refine ⟨?_, ?_, ?_⟩ <;> linarith

theorem turnover_cons (p : Str) (t : RTx) (ts : List RTx) : turnover p (t :: ts) =
    (if t.cr = some p then |t.amount| else 0) + (if t.dt = some p then |t.amount| else 0) + turnover p ts := by
  simp [turnover]

theorem totalAbs_cons (t : RTx) (ts : List RTx) : totalAbs (t :: ts) = |t.amount| + totalAbs ts := by simp [totalAbs]

theorem loop_near (R : IEEE rnd u η) {s : Structure} {stop : When} {K : ℕ} {txs ex : List RTx} (H : List.Forall₂ (Recorded rnd u K) txs ex) :
    ∀ (J : ℕ), K ≤ J → ∀ b e n b' : Sheet, SheetNear rnd u J b e n → sheetLoopF rnd s stop b txs = .ok b' →
    ∃ e' n', sheetLoop s stop e ex = .ok e' ∧ SheetNear rnd u (J + 2 * (upTo stop ex).length) b' e' n' ∧
      tot n' ≤ tot n + 2 * totalAbs (upTo stop ex) ∧ cnt b' ≤ cnt b + 2 * (upTo stop ex).length ∧
      ∀ p, size p n'.assets ≤ size p n.assets + turnover p (upTo stop ex) ∧ size p n'.liabilities ≤ size p n.liabilities + turnover p (upTo stop ex) ∧
        size p n'.equity ≤ size p n.equity + turnover p (upTo stop ex) := by
  induction H with
  | nil =>
    intro J hJ b e n b' hn h
    simp only [sheetLoopF, Except.ok.injEq] at h
    subst h
    exact ⟨e, n, rfl, by simpa [upTo] using hn, by simp [upTo, totalAbs], by simp [upTo], by simp [upTo, turnover]⟩
  | @cons t x ts xs hr hrs ih =>
    intro J hJ b e n b' hn h
    obtain ⟨h1, h2, h3⟩ := hr
    have e1 : t.date = x.date := by rw [h1]
    have e2 : t.cr = x.cr := by rw [h1]
    have e3 : t.dt = x.dt := by rw [h1]
    simp only [sheetLoopF, e1, e2, e3] at h
    simp only [sheetLoop]
    split at h
    · cases h
    · rename_i hle
      rw [upTo_cons, le_notAfter hle]
      simp only [hle]
      exact ih J hJ b e n b' hn h
    · rename_i hle
      split at h
      · cases h
      · rename_i cty hcty
        split at h
        · cases h
        · rename_i dty hdty
          rw [upTo_cons, le_notAfter hle]
          obtain ⟨c, hc, -⟩ := acctType_some hcty
          obtain ⟨d, hd, -⟩ := acctType_some hdty
          have m0 : 0 ≤ |x.amount| := abs_nonneg _
          have g1 := h3.trans (mul_le_mul_of_nonneg_right (slack_mono R.u0 hJ) m0)
          have n1 := near_credit R hn cty (x.cr.getD []) h2 g1 (le_refl _)
          have g2 := h3.trans (mul_le_mul_of_nonneg_right (slack_mono R.u0 (hJ.trans (Nat.le_succ J))) m0)
          have n2 := near_debit R n1 dty (x.dt.getD []) h2 g2 (le_refl _)
          obtain ⟨e', n', i1, i2, i3, i4, i5⟩ := ih (J + 2) (by omega) _ _ _ b' n2 h
          simp only [hle, hcty, hdty]
          refine ⟨e', n', i1, ?_, ?_, ?_, ?_⟩
          · rw [if_pos trivial, List.length_cons]
            rwa [show J + 2 * ((upTo stop xs).length + 1) = J + 2 + 2 * (upTo stop xs).length by omega]
          · rw [if_pos trivial, totalAbs_cons]
            have a1 := tot_addM n cty (x.cr.getD []) m0
            have a2 := tot_addM (addM n cty (x.cr.getD []) |x.amount|) dty (x.dt.getD []) m0
            linarith
          · rw [if_pos trivial, List.length_cons]
            have a1 := cnt_creditF (rnd := rnd) b cty (x.cr.getD []) t.amount
            have a2 := cnt_debitF (rnd := rnd) (creditF rnd b cty (x.cr.getD []) t.amount) dty (x.dt.getD []) t.amount
            omega
          · intro p
            obtain ⟨q1, q2, q3⟩ := i5 p
            obtain ⟨r1, r2, r3⟩ := size_addM n cty (x.cr.getD []) p m0
            obtain ⟨s1, s2, s3⟩ := size_addM (addM n cty (x.cr.getD []) |x.amount|) dty (x.dt.getD []) p m0
            rw [if_pos trivial, turnover_cons]
            simp only [hc, hd, Option.getD_some, Option.some.injEq] at q1 q2 q3 r1 r2 r3 s1 s2 s3 ⊢
            refine ⟨?_, ?_, ?_⟩ <;> linarith

theorem sheet_near (R : IEEE rnd u η) {s : Structure} {stop : When} {K : ℕ} {txs ex : List RTx} (H : List.Forall₂ (Recorded rnd u K) txs ex)
    {b : Sheet} (h : sheetSumsF rnd s stop txs = .ok b) :
    ∃ e n, sheetSums s stop ex = .ok e ∧ SheetNear rnd u (K + 2 * (upTo stop ex).length) b e n ∧
      tot n ≤ 2 * totalAbs (upTo stop ex) ∧ cnt b ≤ 2 * (upTo stop ex).length ∧
      ∀ p, size p n.assets ≤ turnover p (upTo stop ex) ∧ size p n.liabilities ≤ turnover p (upTo stop ex) ∧ size p n.equity ≤ turnover p (upTo stop ex) := by
  obtain ⟨e, n, h1, h2, h3, h4, h5⟩ := loop_near R H K (le_refl _) ⟨[], [], []⟩ ⟨[], [], []⟩ ⟨[], [], []⟩ b ⟨.nil, .nil, .nil⟩ h
  refine ⟨e, n, h1, h2, ?_, ?_, ?_⟩
  · simpa [tot, dictSum] using h3
  · simpa [cnt] using h4
  · intro p; simpa [size, lookup_nil] using h5 p

theorem near_sum_nonneg {K : ℕ} {d e n : Dict Str} (H : Near rnd u K d e n) : 0 ≤ dictSum n := by
  induction H with
  | nil => simp [dictSum]
  | cons _ _ c _ ih => simp only [dictSum, List.map_cons, List.sum_cons] at ih ⊢; have := (abs_nonneg _).trans c; linarith

theorem totals_near (R : IEEE rnd u η) {K J : ℕ} {b e n : Sheet} (H : SheetNear rnd u K b e n) (hJ : K + cnt b + 1 ≤ J) :
    |leftTotal rnd b - dictSum e.assets| + |rightTotal rnd b - (dictSum e.liabilities + dictSum e.equity)| ≤ slack u J * tot n := by
  obtain ⟨h1, h2, h3⟩ := H
  obtain ⟨a1, a2, a3⟩ := near_sum R h1
  obtain ⟨b1, b2, b3⟩ := near_sum R h2
  obtain ⟨c1, c2, c3⟩ := near_sum R h3
  have p1 := near_sum_nonneg h1
  have p2 := near_sum_nonneg h2
  have p3 := near_sum_nonneg h3
  unfold cnt at hJ
  have la := a2.trans (mul_le_mul_of_nonneg_right (slack_mono R.u0 (show K + b.assets.length ≤ J by omega)) p1)
  have lb := b2.trans (mul_le_mul_of_nonneg_right (slack_mono R.u0 (show K + b.liabilities.length ≤ J - 1 by omega)) p2)
  have lc := c2.trans (mul_le_mul_of_nonneg_right (slack_mono R.u0 (show K + b.equity.length ≤ J - 1 by omega)) p3)
  have s := step_err R b1 c1 lb lc b3 c3
  rw [show J - 1 + 1 = J by omega] at s
  unfold leftTotal rightTotal tot
  linarith

/-- `(1 + u) ** n - 1 ≤ n u / (1 - n u)`. -/
theorem slack_le (h0 : 0 ≤ u) (h1 : u < 1) (n : ℕ) (h : n * u < 1) : slack u n ≤ n * u / (1 - n * u) := by
  have a := ChemFloat.Proofs.one_add_pow h0 h1 n
  unfold slack
  have : (0 : ℚ) < 1 - n * u := by linarith
  have a := (le_div_iff₀ this).mpr a
  rw [show (n : ℚ) * u / (1 - n * u) = 1 / (1 - n * u) - 1 by field_simp; ring]
  linarith

/-- Numbers closer than a cent print alike to within a cent. -/
theorem cents_close {x y : ℚ} (h : |x - y| < 1 / 100) : |cents x - cents y| ≤ 1 := by
  have a := roundEven_err (100 * x)
  have b := roundEven_err (100 * y)
  rw [abs_le] at a b
  rw [abs_lt] at h
  have c : |(cents x : ℚ) - cents y| < 2 := by
    unfold cents; rw [abs_lt]; constructor <;> linarith [a.1, a.2, b.1, b.2, h.1, h.2]
  have d : |cents x - cents y| < 2 := by exact_mod_cast c
  omega

/-- A number within half a cent of a whole number of cents prints as it. -/
theorem cents_whole {x : ℚ} {k : ℤ} (h : |x - (k : ℚ) / 100| < 1 / 200) : cents x = k := by
  have a := roundEven_err (100 * x)
  rw [abs_le] at a
  rw [abs_lt] at h
  have c : |(cents x : ℚ) - k| < 1 := by
    unfold cents; rw [abs_lt]; constructor <;> linarith [a.1, a.2, h.1, h.2]
  have d : |cents x - k| < 1 := by exact_mod_cast c
  have := abs_lt.mp d
  omega

end Auxi.ReportsFloat.Proofs
