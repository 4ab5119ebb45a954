import Verif.Proofs.YearEnd
import Verif.Proofs.Calendar
import Mathlib.Tactic.Ring
namespace Auxi.Business
open Spec Time Calendar Ledger

/-! ## Calendar facts -/

/-- months since year 0 of an instant -/
def mi (t : Int) : Int := monthIndex (year t) (month t)

theorem mi_addMonths (t k : Int) : mi (addMonths t k) = mi t + k := by
  have hv := addMonths_valid t k
  have hf := fields_mk hv
  unfold mi monthIndex
  unfold addMonths
  simp only
  rw [hf.1, hf.2.1]
  omega

theorem lt_of_mi {a b : Int} (h : mi a < mi b) : a < b := by
  obtain ⟨va, ea⟩ := fields_valid a
  obtain ⟨vb, eb⟩ := fields_valid b
  have := lt_of_monthIndex va vb h
  rw [ea, eb] at this
  exact this

theorem addMonths_mod (t k : Int) : (addMonths t k) % dayUs = t % dayUs := by
  unfold addMonths mkDateTime
  simp only [timeOfDay]
  rw [Int.add_emod, Int.mul_emod_left, zero_add, Int.emod_emod_of_dvd _ (dvd_refl _), Int.emod_emod_of_dvd _ (dvd_refl _)]

theorem addMonths_gap (t : Int) (k : Nat) : t + k * dayUs ≤ addMonths t k := by
  induction k with
  | zero => simp [addMonths_zero]
  | succ k ih =>
    have h1 : addMonths t k < addMonths t ((k + 1 : Nat) : Int) := addMonths_strictMono t (by omega)
    have h2 := addMonths_mod t k
    have h3 := addMonths_mod t ((k + 1 : Nat) : Int)
    have : addMonths t k + dayUs ≤ addMonths t ((k + 1 : Nat) : Int) := by
      unfold dayUs at *; omega
    push_cast
    rw [add_mul, one_mul]
    push_cast at this
    omega

theorem year_gap (t : Int) : t + 12 * dayUs ≤ addYears t 1 := by
  rw [addYears_eq]
  have := addMonths_gap t 12
  simpa using this

theorem yearStart_lt (t : Int) (q : Nat) : yearStart t q + 12 * dayUs ≤ yearStart t (q + 1) := year_gap _

theorem yearStart_mono (t : Int) {p q : Nat} (h : p ≤ q) : yearStart t p ≤ yearStart t q := by
  induction h with
  | refl => exact le_refl _
  | step _ ih => exact le_trans ih (by have := yearStart_lt t; rename_i m _; have := this m; unfold dayUs at this; show yearStart t m ≤ yearStart t (m + 1); omega)

theorem mi_yearStart (t : Int) (q : Nat) : mi (yearStart t q) = mi t + 12 * q := by
  induction q with
  | zero => simp [yearStart]
  | succ q ih => rw [yearStart, addYears_eq, mi_addMonths, ih]; push_cast; ring

theorem yearStart_le (t : Int) (q : Nat) : yearStart t q ≤ addYears t q ∧ day (yearStart t q) ≤ day t ∧
    timeOfDay (yearStart t q) = timeOfDay t ∧ year (yearStart t q) = year t + q ∧ month (yearStart t q) = month t := by
  induction q with
  | zero => simp [yearStart, addYears_eq, addMonths_zero]
  | succ q ih =>
    obtain ⟨_, i2, i3, i4, i5⟩ := ih
    have hf := fields_mk (addYears_valid (yearStart t q) 1)
    have e : yearStart t (q + 1) = mkDateTime (year (yearStart t q) + 1) (month (yearStart t q))
      (min (dim (year (yearStart t q) + 1) (month (yearStart t q))) (day (yearStart t q))) (timeOfDay (yearStart t q)) := rfl
    rw [← e] at hf
    obtain ⟨f1, f2, f3, f4⟩ := hf
    have hy : year (yearStart t (q + 1)) = year t + ((q + 1 : Nat) : Int) := by rw [f1, i4]; push_cast; ring
    refine ⟨?_, by rw [f3]; omega, f4.trans i3, hy, f2.trans i5⟩
    rw [e]
    unfold addYears
    simp only
    have e2 : year (yearStart t q) + 1 = year t + ((q + 1 : Nat) : Int) := by rw [i4]; push_cast; ring
    rw [e2, i5, i3]
    unfold mkDateTime dayNumber
    have : min (dim (year t + ((q + 1 : Nat) : Int)) (month t)) (day (yearStart t q)) ≤
      min (dim (year t + ((q + 1 : Nat) : Int)) (month t)) (day t) := by omega
    unfold dayUs
    omega

theorem atIx_zero (clk : Clock) : clk.atIx 0 = clk.start := by
  unfold Clock.atIx; cases clk.duration <;> simp [addMonths_zero, addYears_eq]

/-- One more period does not skip a year. -/
theorem no_skip (clk : Clock) (i q : Nat) (h : clk.atIx i < yearStart clk.start (q + 1)) :
    clk.atIx ((i + 1 : Nat) : Int) < yearStart clk.start (q + 1 + 1) := by
  have hg := yearStart_lt clk.start (q + 1)
  cases hd : clk.duration with
  | month =>
    have hat : ∀ j : Int, clk.atIx j = addMonths clk.start j := by intro j; simp [Clock.atIx, hd]
    rw [hat] at h ⊢
    apply lt_of_mi
    rw [mi_addMonths, mi_yearStart]
    have : ¬ mi (yearStart clk.start (q + 1)) < mi (addMonths clk.start i) := fun hh => absurd (lt_of_mi hh) (by omega)
    rw [mi_addMonths, mi_yearStart] at this
    push_cast at *
    omega
  | year =>
    have hat : ∀ j : Int, clk.atIx j = addYears clk.start j := by intro j; simp [Clock.atIx, hd]
    rw [hat] at h ⊢
    have h2 := (yearStart_le clk.start (q + 1)).1
    have h3 : (i : Int) < ((q + 1 : Nat) : Int) := by
      by_contra hge
      have : addYears clk.start ((q + 1 : Nat) : Int) ≤ addYears clk.start i := by
        rcases eq_or_lt_of_le (not_lt.1 hge) with he | hl
        · rw [he]
        · rw [addYears_eq, addYears_eq]; exact (addMonths_strictMono _ (by omega)).le
      omega
    apply lt_of_mi
    rw [addYears_eq, mi_addMonths, mi_yearStart]
    push_cast at *
    omega
  | millisecond => simp only [Clock.atIx, hd] at h ⊢; unfold dayUs at *; push_cast; omega
  | second => simp only [Clock.atIx, hd] at h ⊢; unfold dayUs at *; push_cast; omega
  | minute => simp only [Clock.atIx, hd] at h ⊢; unfold dayUs at *; push_cast; omega
  | hour => simp only [Clock.atIx, hd] at h ⊢; unfold dayUs at *; push_cast; omega
  | day => simp only [Clock.atIx, hd] at h ⊢; unfold dayUs at *; push_cast; omega
  | week => simp only [Clock.atIx, hd] at h ⊢; unfold dayUs at *; push_cast; omega

/-! ## What a period posts -/

theorem act_txs (clk : Clock) (a : Activity) : ∀ t ∈ (a.run clk).2, t.date = clk.now ∧ t.closingCr = false := by
  intro t ht
  unfold Activity.run at ht
  split at ht
  · simp at ht
  · cases hk : a.kind with
    | basic am d c => simp [hk] at ht; subst ht; exact ⟨rfl, rfl⟩
    | loan b l i am r p d m lf =>
      simp only [hk] at ht
      split at ht
      · simp at ht; subst ht; exact ⟨rfl, rfl⟩
      · simp at ht
        rcases ht with rfl | rfl <;> exact ⟨rfl, rfl⟩

theorem acts_txs (clk : Clock) (as : List Activity) : ∀ t ∈ (runActivities clk as).2, t.date = clk.now ∧ t.closingCr = false := by
  induction as with
  | nil => simp [runActivities]
  | cons a as ih =>
    intro t ht
    simp only [runActivities, List.mem_append] at ht
    rcases ht with ht | ht
    · exact act_txs clk a t ht
    · exact ih t ht

mutual
theorem comp_txs (clk : Clock) : ∀ c : Component, ∀ t ∈ (c.run clk).2, t.date = clk.now ∧ t.closingCr = false
  | ⟨nm, d, pp, p, cs, as⟩ => by
    intro t ht
    simp only [Component.run, List.mem_append] at ht
    rcases ht with ht | ht
    · exact comps_txs clk cs t ht
    · exact acts_txs clk as t ht
theorem comps_txs (clk : Clock) : ∀ cs : List Component, ∀ t ∈ (runComponents clk cs).2, t.date = clk.now ∧ t.closingCr = false
  | [] => by simp [runComponents]
  | c :: cs => by
    intro t ht
    simp only [runComponents, List.mem_append] at ht
    rcases ht with ht | ht
    · exact comp_txs clk c t ht
    · exact comps_txs clk cs t ht
end

theorem posted_self {l : List Tx} (h : ∀ t ∈ l, t.closingCr = false) : posted l = l := by
  unfold posted
  rw [List.filter_eq_self]
  intro t ht; simp [h t ht]

theorem inWindow_append (a b : Int) (x y : List Tx) : inWindow a b (x ++ y) = inWindow a b x ++ inWindow a b y := by
  simp [inWindow]

theorem inWindow_none {a b : Int} {l : List Tx} (h : ∀ t ∈ l, ¬ (a ≤ t.date ∧ t.date ≤ b - 1000000)) : inWindow a b l = [] := by
  unfold inWindow
  rw [List.filter_eq_nil_iff]
  intro t ht; simpa using h t ht

theorem inWindow_all {a b : Int} {l : List Tx} (h : ∀ t ∈ l, a ≤ t.date ∧ t.date ≤ b - 1000000) : inWindow a b l = l := by
  unfold inWindow
  rw [List.filter_eq_self]
  intro t ht; simpa using h t ht

/-! ## The invariant of a run -/

/-- State of an entity before period `i` of a run of `n` periods, `Q` years having been closed. -/
structure YInv (clk : Clock) (n i Q : Nat) (ch : Chart) (pa : Str) (e : Entity) : Prop where
  prev : e.prevYearEnd = yearStart clk.start Q
  curr : e.currYearEnd = yearStart clk.start (Q + 1) ∨ (e.currYearEnd = clk.atIx n ∧ clk.atIx n < yearStart clk.start (Q + 1))
  exec : e.execYearEnd = clk.atIx n
  pc : e.periodCount = n
  hchart : e.chart = ch
  hpath : e.path = pa
  notyet : ∀ j : Nat, j < i → clk.atIx j < e.currYearEnd
  notyet' : ∀ j : Nat, j < i → clk.atIx j < yearStart clk.start (Q + 1)
  past : 0 < Q → ∃ j : Nat, j < i ∧ yearStart clk.start Q ≤ clk.atIx j
  dates : ∀ t ∈ e.transactions, t.closingCr = false → ∃ j : Nat, j < i ∧ t.date = clk.atIx j
  closings : ∀ t ∈ e.transactions, t.closingCr = true → ∃ q, q < Q ∧ t.date = yearStart clk.start (q + 1) - 1000000
  closed : ∀ q, q < Q → ∃ w, classifyAll ch ⟨[], []⟩
      (inWindow (yearStart clk.start q) (yearStart clk.start (q + 1)) (posted e.transactions)) = .ok w ∧
    inWindow (yearStart clk.start q) (yearStart clk.start (q + 1)) e.transactions =
      inWindow (yearStart clk.start q) (yearStart clk.start (q + 1)) (posted e.transactions) ++
        closingTxs ch pa (yearStart clk.start (q + 1) - 1000000) w

theorem window_disjoint {l : List Tx} {a b d : Int} (h : ∀ t ∈ l, t.date = d) (hd : b ≤ d ∨ d < a) : inWindow a b l = [] := by
  apply inWindow_none
  intro t ht
  rw [h t ht]; omega

/-- One period. -/
theorem yinv_step {clk : Clock} {n i Q : Nat} {ch : Chart} {pa : Str} {e e' : Entity} (hi : i < n)
    (inv : YInv clk n i Q ch pa e) (h : e.run (clockAt clk i) = .ok e') :
    (e'.prevYearEnd = e.prevYearEnd ∧ YInv clk n (i + 1) Q ch pa e' ∧ clk.atIx i < yearStart clk.start (Q + 1)) ∨
    (e.currYearEnd = yearStart clk.start (Q + 1) ∧ e'.prevYearEnd = e.currYearEnd ∧ e'.prevYearEnd ≠ e.prevYearEnd ∧
      YInv clk n (i + 1) (Q + 1) ch pa e' ∧ yearStart clk.start (Q + 1) ≤ clk.atIx i) := by
  obtain ⟨i1, i2, i3, i4, i5, i6, i7, i7', i8, i9, i10, i11⟩ := inv
  have hnow : (clockAt clk i).now = clk.atIx i := rfl
  have hexec : clk.atIx i < clk.atIx n := atIx_strict clk (by omega)
  unfold Entity.run at h
  rw [if_neg (by rw [i4]; show ¬ ((i : Int) ≥ n); omega)] at h
  simp only at h
  have hT := comps_txs (clockAt clk i) e.components
  generalize hTn : (runComponents (clockAt clk i) e.components).2 = T at h hT
  generalize (runComponents (clockAt clk i) e.components).1 = C at h
  have hTd : ∀ t ∈ T, t.date = clk.atIx i := fun t ht => (hT t ht).1
  have hTp : posted T = T := posted_self (fun t ht => (hT t ht).2)
  have hclosedLt : ∀ q, q < Q → yearStart clk.start (q + 1) ≤ clk.atIx i := by
    intro q hq
    obtain ⟨j, j1, j2⟩ := i8 (by omega)
    have a := yearStart_mono clk.start (p := q + 1) (q := Q) (by omega)
    have b : clk.atIx j ≤ clk.atIx i := atIx_le clk (by omega)
    omega
  unfold Entity.yearEnd at h
  split at h
  · rename_i hfire
    simp only [hnow, i4] at hfire
    have hfire' : clk.atIx i ≥ e.currYearEnd := by
      rcases hfire with hf | hf
      · exact hf
      · exfalso; have : ((clockAt clk i).ix : Int) = i := rfl
        rw [this] at hf; omega
    have hcurr : e.currYearEnd = yearStart clk.start (Q + 1) := by
      rcases i2 with h2 | h2
      · exact h2
      · omega
    right
    split at h
    · cases h
    · rename_i w hw
      simp only [Except.ok.injEq] at h
      have gap0 := yearStart_lt clk.start Q
      have gap1 := yearStart_lt clk.start (Q + 1)
      have hYear : Entity.yearTxs { e with components := C, transactions := e.transactions ++ T } =
          inWindow (yearStart clk.start Q) (yearStart clk.start (Q + 1)) (posted (e.transactions ++ T)) := by
        have h1 : Entity.yearTxs { e with components := C, transactions := e.transactions ++ T } =
            inWindow (yearStart clk.start Q) (yearStart clk.start (Q + 1)) (e.transactions ++ T) := by
          unfold Entity.yearTxs inWindow
          simp only [i1, hcurr]
        rw [h1, posted_append, hTp, inWindow_append, inWindow_append]
        congr 1
        unfold inWindow posted
        rw [List.filter_filter]
        apply List.filter_congr
        intro t ht
        by_cases hc : t.closingCr = true
        · obtain ⟨q, q1, q2⟩ := i10 t ht hc
          have := yearStart_mono clk.start (p := q + 1) (q := Q) (by omega)
          have : ¬ (yearStart clk.start Q ≤ t.date) := by omega
          simp [this]
        · simp [hc]
      have hw : classifyAll e.chart ⟨[], []⟩ (Entity.yearTxs { e with components := C, transactions := e.transactions ++ T }) = .ok w := hw
      rw [hYear, i5] at hw
      have hTx : e'.transactions = (e.transactions ++ T) ++ closingTxs ch pa (yearStart clk.start (Q + 1) - 1000000) w := by
        rw [← h]; simp only [i5, i6, hcurr]
      have hCl := closingTxs_closing ch pa (yearStart clk.start (Q + 1) - 1000000) w
      have hPost : posted e'.transactions = posted (e.transactions ++ T) := by
        rw [hTx, posted_append, posted_closingTxs, List.append_nil]
      have hprev : e'.prevYearEnd = e.currYearEnd := by rw [← h]; rfl
      have hc' : e'.currYearEnd = if addYears e.currYearEnd 1 > e.execYearEnd then e.execYearEnd else addYears e.currYearEnd 1 := by
        rw [← h]; rfl
      have hnext : clk.atIx i < yearStart clk.start (Q + 1 + 1) := by
        cases i with
        | zero =>
          have := yearStart_mono clk.start (p := 0) (q := Q + 1) (by omega)
          have := atIx_zero clk
          simp only [yearStart, Nat.cast_zero] at *
          unfold dayUs at gap1; omega
        | succ i => exact no_skip clk i Q (i7' i (by omega))
      refine ⟨hcurr, hprev, by rw [hprev, hcurr, i1]; unfold dayUs at gap0; omega, ?_, by omega⟩
      constructor
      · rw [hprev, hcurr]
      · rw [hc', hcurr, i3]
        split
        · rename_i hgt; right; exact ⟨rfl, hgt⟩
        · left; rfl
      · rw [← h]; exact i3
      · rw [← h]; exact i4
      · rw [← h]; exact i5
      · rw [← h]; exact i6
      · intro j hj
        have hj' : clk.atIx j ≤ clk.atIx i := atIx_le clk (by omega)
        rw [hc', hcurr, i3]
        split
        · omega
        · exact lt_of_le_of_lt hj' hnext
      · intro j hj
        exact lt_of_le_of_lt (atIx_le clk (by omega)) hnext
      · intro _; exact ⟨i, by omega, by omega⟩
      · intro t ht hcl
        rw [hTx] at ht
        simp only [List.mem_append] at ht
        rcases ht with (ht | ht) | ht
        · obtain ⟨j, j1, j2⟩ := i9 t ht hcl; exact ⟨j, by omega, j2⟩
        · exact ⟨i, by omega, hTd t ht⟩
        · rw [(hCl t ht).1] at hcl; simp at hcl
      · intro t ht hcl
        rw [hTx] at ht
        simp only [List.mem_append] at ht
        rcases ht with (ht | ht) | ht
        · obtain ⟨q, q1, q2⟩ := i10 t ht hcl; exact ⟨q, by omega, q2⟩
        · rw [(hT t ht).2] at hcl; simp at hcl
        · exact ⟨Q, by omega, (hCl t ht).2.1⟩
      · intro q hq
        rw [hPost]
        by_cases hqQ : q = Q
        · subst hqQ
          refine ⟨w, hw, ?_⟩
          rw [hTx, inWindow_append]
          have a1 : inWindow (yearStart clk.start q) (yearStart clk.start (q + 1)) (e.transactions ++ T) =
              inWindow (yearStart clk.start q) (yearStart clk.start (q + 1)) (posted (e.transactions ++ T)) := by
            rw [← hYear]; unfold Entity.yearTxs inWindow; simp only [i1, hcurr]
          rw [a1]
          congr 1
          apply inWindow_all
          intro t ht
          rw [(hCl t ht).2.1]; unfold dayUs at gap0; omega
        · obtain ⟨w0, w1, w2⟩ := i11 q (by omega)
          have hz : inWindow (yearStart clk.start q) (yearStart clk.start (q + 1)) T = [] :=
            window_disjoint hTd (.inl (hclosedLt q (by omega)))
          refine ⟨w0, ?_, ?_⟩
          · rw [posted_append, hTp, inWindow_append, hz, List.append_nil]; exact w1
          · rw [hTx, posted_append, hTp, inWindow_append, inWindow_append, inWindow_append, hz, w2]
            have := yearStart_mono clk.start (p := q + 1) (q := Q) (by omega)
            rw [window_disjoint (l := closingTxs _ _ _ _) (fun t ht => (hCl t ht).2.1) (.inl (by unfold dayUs at gap0; omega))]
            simp
  · rename_i hnf
    simp only [Except.ok.injEq] at h
    have hlt : clk.atIx i < e.currYearEnd := by
      by_contra hge
      exact hnf (.inl (by rw [hnow]; exact not_lt.1 hge))
    left
    have hlt' : clk.atIx i < yearStart clk.start (Q + 1) := by
      rcases i2 with h2 | ⟨h2, h3⟩ <;> omega
    have hTx : e'.transactions = e.transactions ++ T := by rw [← h]
    refine ⟨by rw [← h], ?_, hlt'⟩
    have hc' : e'.currYearEnd = e.currYearEnd := by rw [← h]
    constructor
    · rw [← h]; exact i1
    · rw [hc']; exact i2
    · rw [← h]; exact i3
    · rw [← h]; exact i4
    · rw [← h]; exact i5
    · rw [← h]; exact i6
    · intro j hj; rw [hc']; exact lt_of_le_of_lt (atIx_le clk (by omega)) hlt
    · intro j hj; exact lt_of_le_of_lt (atIx_le clk (by omega)) hlt'
    · intro hQ; obtain ⟨j, j1, j2⟩ := i8 hQ; exact ⟨j, by omega, j2⟩
    · intro t ht hcl
      rw [hTx] at ht
      simp only [List.mem_append] at ht
      rcases ht with ht | ht
      · obtain ⟨j, j1, j2⟩ := i9 t ht hcl; exact ⟨j, by omega, j2⟩
      · exact ⟨i, by omega, hTd t ht⟩
    · intro t ht hcl
      rw [hTx] at ht
      simp only [List.mem_append] at ht
      rcases ht with ht | ht
      · exact i10 t ht hcl
      · rw [(hT t ht).2] at hcl; simp at hcl
    · intro q hq
      obtain ⟨w0, w1, w2⟩ := i11 q (by omega)
      have hz : inWindow (yearStart clk.start q) (yearStart clk.start (q + 1)) T = [] :=
        window_disjoint hTd (.inl (hclosedLt q (by omega)))
      refine ⟨w0, ?_, ?_⟩
      · rw [hTx, posted_append, hTp, inWindow_append, hz, List.append_nil]; exact w1
      · rw [hTx, posted_append, hTp, inWindow_append, inWindow_append, hz, w2]
        simp

/-- The state of an entity just prepared. -/
theorem yinv_init (clk : Clock) (n : Nat) (e : Entity) :
    YInv clk n 0 0 e.chart e.path (e.prepare (clockAt clk 0) n) := by
  constructor
  · rfl
  · left; rfl
  · rfl
  · rfl
  · rfl
  · rfl
  · intro j hj; omega
  · intro j hj; omega
  · intro h; omega
  · intro t ht; simp [Entity.prepare] at ht
  · intro t ht; simp [Entity.prepare] at ht
  · intro q hq; omega

/-- Whole runs. -/
theorem yinv_run {clk : Clock} {n : Nat} {ch : Chart} {pa : Str} : ∀ (k i Q : Nat) (e e' : Entity), i + k = n →
    YInv clk n i Q ch pa e → entLoop k (clockAt clk i) e = .ok e' →
    ∃ Q', YInv clk n n (Q + Q') ch pa e' ∧
      yearsClosed clk k i e = (List.range' Q Q').map (fun q => (yearStart clk.start q, yearStart clk.start (q + 1))) := by
  intro k
  induction k with
  | zero =>
    intro i Q e e' hk inv h
    simp only [entLoop, Except.ok.injEq] at h
    subst h
    have : i = n := by omega
    subst this
    exact ⟨0, inv, rfl⟩
  | succ k ih =>
    intro i Q e e' hk inv h
    simp only [entLoop] at h
    split at h
    · cases h
    · rename_i e1 h1
      simp only [yearsClosed, h1]
      rcases yinv_step (by omega) inv h1 with ⟨a1, a2, _⟩ | ⟨a1, a2, a3, a4, _⟩
      · obtain ⟨Q', b1, b2⟩ := ih (i + 1) Q e1 e' (by omega) a2 h
        exact ⟨Q', b1, by simp [a1, b2]⟩
      · obtain ⟨Q', b1, b2⟩ := ih (i + 1) (Q + 1) e1 e' (by omega) a4 h
        refine ⟨Q' + 1, by rw [show Q + (Q' + 1) = Q + 1 + Q' by omega]; exact b1, ?_⟩
        rw [if_pos a3, b2, List.range'_succ, inv.prev, a1]
        rfl

end Auxi.Business
