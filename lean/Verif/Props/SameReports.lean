import Verif.Spec.SameReports
import Verif.Props.LoanCost
import Verif.Props.Parts
import Verif.Props.Reports
import Mathlib.Algebra.BigOperators.Group.Finset.Basic
import Mathlib.Algebra.BigOperators.Ring.Finset

/-! # C160: ledgers with the same books have the same reports -/
namespace Auxi.Business.Props
open Auxi.Business Spec Time Calendar
open Auxi.Reports (RTx When Sheet Income sheetSums incomeSums transactionList)

/-- accounts and date -/
def keyOf (t : Tx) : Str × Str × Int := (t.dt, t.cr, t.date)

theorem lin_by_key (g : Str → Str → Int → ℚ) (S : Finset (Str × Str × Int)) (l : List Tx) (h : ∀ t ∈ l, keyOf t ∈ S) :
    lin g l = ∑ k ∈ S, g k.1 k.2.1 k.2.2 * flow k.1 k.2.1 (fun d => d = k.2.2) l := by
  induction l with
  | nil => simp [lin, flow]
  | cons t l ih =>
    have i := ih (fun t ht => h t (by simp [ht]))
    have e : ∀ k : Str × Str × Int, flow k.1 k.2.1 (fun d => d = k.2.2) (t :: l) = (if keyOf t = k then t.amount else 0) + flow k.1 k.2.1 (fun d => d = k.2.2) l := by
      intro k
      obtain ⟨a, b, c⟩ := k
      unfold flow keyOf
      rw [List.filter_cons]
      by_cases hk : t.dt = a ∧ t.cr = b ∧ t.date = c
      · obtain ⟨rfl, rfl, rfl⟩ := hk; simp
      · have : ¬ ((t.dt, t.cr, t.date) = (a, b, c)) := by simpa [Prod.ext_iff] using hk
        rw [if_neg this, if_neg (by simpa using hk)]; simp
    simp only [e, mul_add, Finset.sum_add_distrib, ← i]
    have : ∑ k ∈ S, g k.1 k.2.1 k.2.2 * (if keyOf t = k then t.amount else 0) = g t.dt t.cr t.date * t.amount := by
      simp only [mul_ite, mul_zero]
      rw [Finset.sum_ite_eq, if_pos (h t (by simp))]
      rfl
    rw [this]
    simp [lin]

theorem linEq_of_flows {l l1 : List Tx} (h : ∀ (dt cr : Str) (D : Int → Bool), flow dt cr D l1 = flow dt cr D l) : LinEq l l1 := by
  intro g
  let S : Finset (Str × Str × Int) := (l ++ l1).map keyOf |>.toFinset
  rw [lin_by_key g S l (fun t ht => by simp [S]; exact Or.inl ⟨t, ht, rfl⟩), lin_by_key g S l1 (fun t ht => by simp [S]; exact Or.inr ⟨t, ht, rfl⟩)]
  exact Finset.sum_congr rfl (fun k _ => by rw [h])

/-! ## The reports' view -/

/-- the dates up to `stop` -/
def before (stop : When) (d : Int) : Bool := Reports.Spec.notAfter (.datetime d) stop

theorem upTo_seen (stop : When) (l : List Tx) : Reports.Spec.upTo stop (seen l) = seen (l.filter (fun t => before stop t.date)) := by
  unfold Reports.Spec.upTo seen
  rw [List.filter_map]
  rfl

theorem netCredit_seen (p : Str) (l : List Tx) : Reports.Spec.netCredit p (seen l) = netCredit p l := by
  unfold Reports.Spec.netCredit netCredit seen
  rw [List.map_map]
  congr 1
  apply List.map_congr_left
  intro t _
  simp [RTx.ofTx]

theorem touched_seen (p : Str) (l : List Tx) : Reports.Spec.Touched p (seen l) ↔ ∃ t ∈ l, t.cr = p ∨ t.dt = p := by
  unfold Reports.Spec.Touched seen
  simp [RTx.ofTx]

theorem netCredit_untouched (p : Str) (l : List Tx) (h : ¬ ∃ t ∈ l, t.cr = p ∨ t.dt = p) : netCredit p l = 0 := by
  unfold netCredit
  apply List.sum_eq_zero
  intro x hx
  obtain ⟨t, ht, rfl⟩ := List.mem_map.1 hx
  have h1 : ¬ t.cr = p := fun e => h ⟨t, ht, Or.inl e⟩
  have h2 : ¬ t.dt = p := fun e => h ⟨t, ht, Or.inr e⟩
  simp [h1, h2]

/-- what a sheet shows -/
theorem sheet_figures {s : Ledger.Structure} {stop : When} {l : List Tx} {b : Sheet} (h : sheetSums s stop (seen l) = .ok b) (p : Str) :
    let v := netCredit p (l.filter (fun t => before stop t.date))
    figure p b.assets = (if Reports.Spec.typeOf s p = some .asset then -v else 0) ∧
    figure p b.liabilities = (if Reports.Spec.typeOf s p = some .liability then v else 0) ∧
    figure p b.equity = (if Reports.Spec.typeOf s p = some .equity then v else 0) := by
  obtain ⟨h1, h2, h3, -⟩ := Reports.Props.C10_entries s stop (seen l) b h p
  rw [upTo_seen, netCredit_seen, touched_seen] at h1 h2 h3
  intro v
  have hz := netCredit_untouched p (l.filter (fun t => before stop t.date))
  unfold figure
  rw [h1, h2, h3]
  by_cases ht : ∃ t ∈ l.filter (fun t => before stop t.date), t.cr = p ∨ t.dt = p
  · refine ⟨?_, ?_, ?_⟩ <;> (simp only [ht, and_true]; split <;> rfl)
  · have := hz ht
    refine ⟨?_, ?_, ?_⟩ <;> (simp only [ht, and_false, if_false, v, this]; simp)

/-! ## Dicts -/

theorem lookup_of_mem {d : Dict Str} (hn : (d.map (·.1)).Nodup) {e : Str × ℚ} (h : e ∈ d) : Reports.Spec.lookup e.1 d = some e.2 := by
  unfold Reports.Spec.lookup
  induction d with
  | nil => cases h
  | cons x d ih =>
    rw [List.map_cons, List.nodup_cons] at hn
    rw [List.find?_cons]
    rcases List.mem_cons.1 h with rfl | h
    · simp
    · have : ¬ x.1 = e.1 := fun q => hn.1 (q ▸ List.mem_map.2 ⟨e, h, rfl⟩)
      simp only [this, decide_false]
      exact ih hn.2 h

theorem mem_of_lookup {d : Dict Str} {p : Str} {v : ℚ} (h : Reports.Spec.lookup p d = some v) : (p, v) ∈ d := by
  unfold Reports.Spec.lookup at h
  obtain ⟨e, h1, h2⟩ := Option.map_eq_some_iff.1 h
  have := List.find?_some h1
  simp only [decide_eq_true_eq] at this
  have hm := List.mem_of_find?_eq_some h1
  rw [← this, ← h2]; exact hm

theorem dict_perm {d d1 : Dict Str} (hn : (d.map (·.1)).Nodup) (hn1 : (d1.map (·.1)).Nodup) (h : ∀ p, Reports.Spec.lookup p d1 = Reports.Spec.lookup p d) : d1.Perm d := by
  refine (List.perm_ext_iff_of_nodup (List.Nodup.of_map _ hn1) (List.Nodup.of_map _ hn)).2 (fun e => ⟨fun he => ?_, fun he => ?_⟩)
  · exact mem_of_lookup ((h e.1).symm.trans (lookup_of_mem hn1 he))
  · exact mem_of_lookup ((h e.1).trans (lookup_of_mem hn he))

theorem dictSum_figures (S : Finset Str) (d : Dict Str) (hn : (d.map (·.1)).Nodup) (h : ∀ e ∈ d, e.1 ∈ S) : Reports.dictSum d = ∑ p ∈ S, figure p d := by
  induction d with
  | nil => simp [Reports.dictSum, figure, Reports.Spec.lookup]
  | cons x d ih =>
    rw [List.map_cons, List.nodup_cons] at hn
    have i := ih hn.2 (fun e he => h e (by simp [he]))
    have e : ∀ p, figure p (x :: d) = (if x.1 = p then x.2 else 0) + figure p d := by
      intro p
      unfold figure Reports.Spec.lookup
      rw [List.find?_cons]
      by_cases hp : x.1 = p
      · subst hp
        have : d.find? (fun e => e.1 = x.1) = none := by
          rw [List.find?_eq_none]
          intro e he
          simp only [decide_eq_true_eq]
          exact fun q => hn.1 (q ▸ List.mem_map.2 ⟨e, he, rfl⟩)
        simp [this]
      · simp [hp]
    simp only [e, Finset.sum_add_distrib, ← i]
    rw [Finset.sum_ite_eq, if_pos (h x (by simp))]
    simp [Reports.dictSum]

theorem dictSum_eq {d d1 : Dict Str} (hn : (d.map (·.1)).Nodup) (hn1 : (d1.map (·.1)).Nodup) (h : ∀ p, figure p d1 = figure p d) : Reports.dictSum d1 = Reports.dictSum d := by
  let S : Finset Str := ((d ++ d1).map (·.1)).toFinset
  have m : ∀ e : Str × ℚ, e ∈ d ++ d1 → e.1 ∈ S := fun e he => List.mem_toFinset.2 (List.mem_map.2 ⟨e, he, rfl⟩)
  rw [dictSum_figures S d hn (fun e he => m e (by simp [he])), dictSum_figures S d1 hn1 (fun e he => m e (by simp [he]))]
  exact Finset.sum_congr rfl (fun p _ => h p)

/-! ## Balance sheets -/

/-- **C160 (balance sheet).** Ledgers with the same books have the same balance sheet at every date: the same figure for every account and the same totals. -/
theorem C160_sheet (s : Ledger.Structure) (stop : When) (l l1 : List Tx) (b b1 : Sheet) (h : SameBooks l l1)
    (hb : sheetSums s stop (seen l) = .ok b) (hb1 : sheetSums s stop (seen l1) = .ok b1) :
    (∀ p, figure p b1.assets = figure p b.assets ∧ figure p b1.liabilities = figure p b.liabilities ∧ figure p b1.equity = figure p b.equity) ∧
    Reports.dictSum b1.assets = Reports.dictSum b.assets ∧ Reports.dictSum b1.liabilities = Reports.dictSum b.liabilities ∧ Reports.dictSum b1.equity = Reports.dictSum b.equity := by
  have hf : ∀ p, figure p b1.assets = figure p b.assets ∧ figure p b1.liabilities = figure p b.liabilities ∧ figure p b1.equity = figure p b.equity := by
    intro p
    obtain ⟨a1, a2, a3⟩ := sheet_figures hb p
    obtain ⟨c1, c2, c3⟩ := sheet_figures hb1 p
    rw [a1, a2, a3, c1, c2, c3, h.2.2 p (before stop)]
    exact ⟨rfl, rfl, rfl⟩
  obtain ⟨-, -, -, n1, n2, n3⟩ := Reports.Props.C10_entries s stop (seen l) b hb []
  obtain ⟨-, -, -, m1, m2, m3⟩ := Reports.Props.C10_entries s stop (seen l1) b1 hb1 []
  exact ⟨hf, dictSum_eq n1 m1 (fun p => (hf p).1), dictSum_eq n2 m2 (fun p => (hf p).2.1), dictSum_eq n3 m3 (fun p => (hf p).2.2)⟩

theorem flow_pos {l : List Tx} (hp : ∀ t ∈ l, 0 < t.amount) {t : Tx} (ht : t ∈ l) {D : Int → Bool} (hD : D t.date = true) : 0 < flow t.dt t.cr D l := by
  unfold flow
  have : ∀ m : List Tx, (∀ t ∈ m, 0 < t.amount) → t ∈ m → 0 < (m.map Tx.amount).sum := by
    intro m
    induction m with
    | nil => intro _ h; cases h
    | cons x m ih =>
      intro hm ht
      have h0 : 0 ≤ (m.map Tx.amount).sum := List.sum_nonneg (by intro y hy; obtain ⟨z, hz, rfl⟩ := List.mem_map.1 hy; exact (hm z (by simp [hz])).le)
      have hx := hm x (by simp)
      rw [List.map_cons, List.sum_cons]
      linarith
  exact this _ (fun t ht => hp t (List.mem_filter.1 ht).1) (List.mem_filter.2 ⟨ht, by simp [hD]⟩)

theorem same_touched {l l1 : List Tx} (h : ∀ (dt cr : Str) (D : Int → Bool), flow dt cr D l1 = flow dt cr D l) (hp : ∀ t ∈ l, 0 < t.amount) (p : Str) (D : Int → Bool)
    (ht : ∃ t ∈ l.filter (fun t => D t.date), t.cr = p ∨ t.dt = p) : ∃ t ∈ l1.filter (fun t => D t.date), t.cr = p ∨ t.dt = p := by
  obtain ⟨t, h1, h2⟩ := ht
  obtain ⟨h3, h4⟩ := List.mem_filter.1 h1
  have := flow_pos hp h3 h4
  rw [← h] at this
  unfold flow at this
  cases hc : l1.filter (fun x => x.dt = t.dt ∧ x.cr = t.cr ∧ D x.date = true) with
  | nil => rw [hc] at this; simp at this
  | cons x m =>
    have hx : x ∈ l1.filter (fun x => x.dt = t.dt ∧ x.cr = t.cr ∧ D x.date = true) := by rw [hc]; simp
    obtain ⟨x1, x2⟩ := List.mem_filter.1 hx
    simp only [decide_eq_true_eq] at x2
    exact ⟨x, List.mem_filter.2 ⟨x1, x2.2.2⟩, by rw [x2.1, x2.2.1]; exact h2⟩

theorem mem_split (l : List Tx) (t : Tx) : t ∈ l ↔ t ∈ posted l ∨ t ∈ closings l := by
  unfold posted closings
  simp only [List.mem_filter]
  cases t.closingCr <;> simp

theorem touched_mono {l l1 : List Tx} (h : SameBooks l l1) (hp : ∀ t ∈ posted l, 0 < t.amount) (p : Str) (D : Int → Bool)
    (ht : ∃ t ∈ l.filter (fun t => D t.date), t.cr = p ∨ t.dt = p) : ∃ t ∈ l1.filter (fun t => D t.date), t.cr = p ∨ t.dt = p := by
  obtain ⟨t, h1, h2⟩ := ht
  obtain ⟨h3, h4⟩ := List.mem_filter.1 h1
  rcases (mem_split l t).1 h3 with h3 | h3
  · obtain ⟨x, x1, x2⟩ := same_touched h.1 hp p D ⟨t, List.mem_filter.2 ⟨h3, h4⟩, h2⟩
    obtain ⟨x3, x4⟩ := List.mem_filter.1 x1
    exact ⟨x, List.mem_filter.2 ⟨(mem_split l1 x).2 (Or.inl x3), x4⟩, x2⟩
  · exact ⟨t, List.mem_filter.2 ⟨(mem_split l1 t).2 (Or.inr (h.2.1.mem_iff.2 h3)), h4⟩, h2⟩

theorem sameBooks_symm {l l1 : List Tx} (h : SameBooks l l1) : SameBooks l1 l :=
  ⟨fun a b D => (h.1 a b D).symm, h.2.1.symm, fun a D => (h.2.2 a D).symm⟩

/-- **C160 (balance sheet, lines).** If moreover the activities post positive amounts only, the sheets have the same lines up to order. -/
theorem C160_sheet_lines (s : Ledger.Structure) (stop : When) (l l1 : List Tx) (b b1 : Sheet) (h : SameBooks l l1)
    (hp : ∀ t ∈ posted l ++ posted l1, 0 < t.amount) (hb : sheetSums s stop (seen l) = .ok b) (hb1 : sheetSums s stop (seen l1) = .ok b1) :
    b1.assets.Perm b.assets ∧ b1.liabilities.Perm b.liabilities ∧ b1.equity.Perm b.equity := by
  obtain ⟨-, -, -, n1, n2, n3⟩ := Reports.Props.C10_entries s stop (seen l) b hb []
  obtain ⟨-, -, -, m1, m2, m3⟩ := Reports.Props.C10_entries s stop (seen l1) b1 hb1 []
  have key : ∀ p, Reports.Spec.Touched p (Reports.Spec.upTo stop (seen l1)) ↔ Reports.Spec.Touched p (Reports.Spec.upTo stop (seen l)) := by
    intro p
    rw [upTo_seen, upTo_seen, touched_seen, touched_seen]
    exact ⟨touched_mono (sameBooks_symm h) (fun t ht => hp t (by simp [ht])) p _, touched_mono h (fun t ht => hp t (by simp [ht])) p _⟩
  have kn : ∀ p, Reports.Spec.netCredit p (Reports.Spec.upTo stop (seen l1)) = Reports.Spec.netCredit p (Reports.Spec.upTo stop (seen l)) := by
    intro p; rw [upTo_seen, upTo_seen, netCredit_seen, netCredit_seen, h.2.2]
  have A := fun p => Reports.Props.C10_entries s stop (seen l) b hb p
  have C := fun p => Reports.Props.C10_entries s stop (seen l1) b1 hb1 p
  refine ⟨dict_perm n1 m1 (fun p => ?_), dict_perm n2 m2 (fun p => ?_), dict_perm n3 m3 (fun p => ?_)⟩
  · rw [(A p).1, (C p).1, kn p]
    by_cases hT : Reports.Spec.Touched p (Reports.Spec.upTo stop (seen l))
    · simp only [hT, (key p).2 hT]
    · rw [if_neg (fun x => hT ((key p).1 x.2)), if_neg (fun x => hT x.2)]
  · rw [(A p).2.1, (C p).2.1, kn p]
    by_cases hT : Reports.Spec.Touched p (Reports.Spec.upTo stop (seen l))
    · simp only [hT, (key p).2 hT]
    · rw [if_neg (fun x => hT ((key p).1 x.2)), if_neg (fun x => hT x.2)]
  · rw [(A p).2.2.1, (C p).2.2.1, kn p]
    by_cases hT : Reports.Spec.Touched p (Reports.Spec.upTo stop (seen l))
    · simp only [hT, (key p).2 hT]
    · rw [if_neg (fun x => hT ((key p).1 x.2)), if_neg (fun x => hT x.2)]

/-! ## Income statements -/

/-- the dates from `start` to `stop` -/
def between (start stop : When) (d : Int) : Bool := Reports.Spec.notAfter start (.datetime d) && Reports.Spec.notAfter (.datetime d) stop

theorem counted_seen {comp : Str} (start stop : When) {l : List Tx} (hu : AllUnder comp l) (hd : ∀ t ∈ l, t.closingDt = false) :
    (seen l).filter (fun t => Reports.Spec.selected comp start stop t && Reports.Spec.ordinary t) = seen ((posted l).filter (fun t => between start stop t.date)) := by
  unfold seen posted
  rw [List.filter_map, List.filter_filter]
  congr 1
  apply List.filter_congr
  intro t ht
  have h1 := hu t ht
  have h2 := hd t ht
  simp only [Function.comp, Reports.Spec.selected, Reports.Spec.ordinary, RTx.ofTx, h1, h2, between]
  cases t.closingCr <;> simp

theorem income_figures {s : Ledger.Structure} {comp : Str} {start stop : When} {l : List Tx} {b : Income} (hs : Reports.Spec.typeOf s [] = none) (h : incomeSums s comp start stop (seen l) = .ok b)
    (hu : AllUnder comp l) (hd : ∀ t ∈ l, t.closingDt = false) (hr : NoReversals s l) (p : Str) :
    let L := (posted l).filter (fun t => between start stop t.date)
    (Reports.Spec.lookup p b.income = open Classical in if Reports.Spec.typeOf s p = some .revenue ∧ ∃ t ∈ L, t.cr = p ∨ t.dt = p then some (netCredit p L) else none) ∧
    (Reports.Spec.lookup p b.expenses = open Classical in if Reports.Spec.typeOf s p = some .expense ∧ ∃ t ∈ L, t.cr = p ∨ t.dt = p then some (-netCredit p L) else none) ∧
    (b.income.map (·.1)).Nodup ∧ (b.expenses.map (·.1)).Nodup := by
  intro L
  have hc := counted_seen start stop hu hd
  have side : ∀ (x : RTx), x ∈ seen L → ∃ t ∈ posted l, x.dt = some t.dt ∧ x.cr = some t.cr := by
    intro x hx
    obtain ⟨t, ht, rfl⟩ := List.mem_map.1 hx
    exact ⟨t, (List.mem_filter.1 ht).1, rfl, rfl⟩
  obtain ⟨-, h2, h3, h4, h5, h6, h7⟩ := Reports.Props.C13_net_income_partial s comp start stop (seen l) b hs h (by
    intro q hq
    rw [hc]
    unfold Reports.Spec.firstOnSide
    split
    · trivial
    · next x hx =>
      obtain ⟨t, t1, t2, t3⟩ := side x (List.mem_of_find?_eq_some hx)
      have := List.find?_some hx
      simp only [decide_eq_true_eq, t2, t3, Option.some.injEq] at this
      rcases this with e | e
      · simp [t3, e]
      · exact absurd (e ▸ hq) (hr t t1).1) (by
    intro q hq
    rw [hc]
    unfold Reports.Spec.firstOnSide
    split
    · trivial
    · next x hx =>
      obtain ⟨t, t1, t2, t3⟩ := side x (List.mem_of_find?_eq_some hx)
      simp only [Bool.false_eq_true, if_false, t3, ne_eq, Option.some.injEq]
      exact fun e => (hr t t1).2 (e ▸ hq))
  rw [hc] at h2 h3 h4 h5
  have ht := touched_seen p L
  have hn := netCredit_seen p L
  refine ⟨?_, ?_, h6, h7⟩
  · split
    · next c => rw [h2 p c.1 (ht.2 c.2), hn]
    · next c =>
      by_contra hne
      obtain ⟨x1, x2⟩ := h4 p hne
      exact c ⟨x1, ht.1 x2⟩
  · split
    · next c => rw [h3 p c.1 (ht.2 c.2), hn]
    · next c =>
      by_contra hne
      obtain ⟨x1, x2⟩ := h5 p hne
      exact c ⟨x1, ht.1 x2⟩

theorem netCredit_lin (p : Str) (D : Int → Bool) (l : List Tx) :
    netCredit p (l.filter (fun t => D t.date)) = lin (fun dt cr d => if D d then (if cr = p then 1 else 0) - (if dt = p then 1 else 0) else 0) l := by
  unfold netCredit lin
  induction l with
  | nil => rfl
  | cons t l ih =>
    rw [List.filter_cons]
    cases hD : D t.date
    · simp only [hD, Bool.false_eq_true, if_false, List.map_cons, List.sum_cons, zero_mul, zero_add]; exact ih
    · simp only [hD, if_true, List.map_cons, List.sum_cons, ih]
      congr 1
      split <;> split <;> ring

theorem netCredit_posted {l l1 : List Tx} (h : SameBooks l l1) (p : Str) (D : Int → Bool) :
    netCredit p ((posted l1).filter (fun t => D t.date)) = netCredit p ((posted l).filter (fun t => D t.date)) := by
  rw [netCredit_lin, netCredit_lin]
  exact linEq_of_flows h.1 _

/-- **C160 (income statement).** Without reversals, ledgers with the same books have the same income statement over every time: the same figure for every account and the same totals. -/
theorem C160_income (s : Ledger.Structure) (comp : Str) (start stop : When) (l l1 : List Tx) (b b1 : Income) (h : SameBooks l l1) (hs : Reports.Spec.typeOf s [] = none)
    (hu : AllUnder comp (l ++ l1)) (hd : ∀ t ∈ l ++ l1, t.closingDt = false) (hr : NoReversals s (l ++ l1))
    (hb : incomeSums s comp start stop (seen l) = .ok b) (hb1 : incomeSums s comp start stop (seen l1) = .ok b1) :
    (∀ p, figure p b1.income = figure p b.income ∧ figure p b1.expenses = figure p b.expenses) ∧
    Reports.dictSum b1.income = Reports.dictSum b.income ∧ Reports.dictSum b1.expenses = Reports.dictSum b.expenses := by
  have hr' : NoReversals s l ∧ NoReversals s l1 := by
    unfold NoReversals posted at *
    constructor <;> intro t ht <;> exact hr t (by rw [List.filter_append]; simp only [List.mem_append]; tauto)
  have F := income_figures hs hb (fun t ht => hu t (by simp [ht])) (fun t ht => hd t (by simp [ht])) hr'.1
  have F1 := income_figures hs hb1 (fun t ht => hu t (by simp [ht])) (fun t ht => hd t (by simp [ht])) hr'.2
  have z : ∀ (m : List Tx) (p : Str), ¬ (∃ t ∈ m, t.cr = p ∨ t.dt = p) → netCredit p m = 0 := fun m p => netCredit_untouched p m
  have hf : ∀ p, figure p b1.income = figure p b.income ∧ figure p b1.expenses = figure p b.expenses := by
    intro p
    obtain ⟨a1, a2, -, -⟩ := F p
    obtain ⟨c1, c2, -, -⟩ := F1 p
    have hn := netCredit_posted h p (between start stop)
    have e : ∀ (P Q : Prop) [Decidable (P ∧ Q)] [Decidable P] (v : ℚ), (¬ Q → v = 0) → ((if P ∧ Q then some v else none : Option ℚ).getD 0) = if P then v else 0 := by
      intro P Q _ _ v hv
      by_cases hP : P
      · by_cases hQ : Q
        · simp [hP, hQ]
        · simp [hP, hQ, hv hQ]
      · simp [hP]
    unfold figure
    rw [a1, a2, c1, c2, e _ _ _ (z _ p), e _ _ _ (z _ p), e _ _ _ (fun q => by rw [z _ p q, neg_zero]), e _ _ _ (fun q => by rw [z _ p q, neg_zero]), hn]
    exact ⟨rfl, rfl⟩
  exact ⟨hf, dictSum_eq (F []).2.2.1 (F1 []).2.2.1 (fun p => (hf p).1), dictSum_eq (F []).2.2.2 (F1 []).2.2.2 (fun p => (hf p).2)⟩

/-- **C160 (income statement, lines).** If moreover the activities post positive amounts only, the statements have the same lines up to order. -/
theorem C160_income_lines (s : Ledger.Structure) (comp : Str) (start stop : When) (l l1 : List Tx) (b b1 : Income) (h : SameBooks l l1) (hs : Reports.Spec.typeOf s [] = none)
    (hu : AllUnder comp (l ++ l1)) (hd : ∀ t ∈ l ++ l1, t.closingDt = false) (hr : NoReversals s (l ++ l1)) (hp : ∀ t ∈ posted l ++ posted l1, 0 < t.amount)
    (hb : incomeSums s comp start stop (seen l) = .ok b) (hb1 : incomeSums s comp start stop (seen l1) = .ok b1) :
    b1.income.Perm b.income ∧ b1.expenses.Perm b.expenses := by
  have hr' : NoReversals s l ∧ NoReversals s l1 := by
    unfold NoReversals posted at *
    constructor <;> intro t ht <;> exact hr t (by rw [List.filter_append]; simp only [List.mem_append]; tauto)
  have F := income_figures hs hb (fun t ht => hu t (by simp [ht])) (fun t ht => hd t (by simp [ht])) hr'.1
  have F1 := income_figures hs hb1 (fun t ht => hu t (by simp [ht])) (fun t ht => hd t (by simp [ht])) hr'.2
  have key : ∀ p, (∃ t ∈ (posted l1).filter (fun t => between start stop t.date), t.cr = p ∨ t.dt = p) ↔ ∃ t ∈ (posted l).filter (fun t => between start stop t.date), t.cr = p ∨ t.dt = p :=
    fun p => ⟨same_touched (sameBooks_symm h).1 (fun t ht => hp t (by simp [ht])) p _, same_touched h.1 (fun t ht => hp t (by simp [ht])) p _⟩
  refine ⟨dict_perm (F []).2.2.1 (F1 []).2.2.1 (fun p => ?_), dict_perm (F []).2.2.2 (F1 []).2.2.2 (fun p => ?_)⟩
  · rw [(F p).1, (F1 p).1, netCredit_posted h p (between start stop)]; simp only [key]
  · rw [(F p).2.1, (F1 p).2.1, netCredit_posted h p (between start stop)]; simp only [key]

/-! ## Transaction lists -/

theorem amounts_lin (D : Int → Bool) (l : List Tx) : ((l.filter (fun t => D t.date)).map Tx.amount).sum = lin (fun _ _ d => if D d then 1 else 0) l := by
  unfold lin
  induction l with
  | nil => rfl
  | cons t l ih => rw [List.filter_cons]; cases hD : D t.date <;> simp [hD, ih]

theorem amounts_split (D : Int → Bool) (l : List Tx) :
    ((l.filter (fun t => D t.date)).map Tx.amount).sum = (((posted l).filter (fun t => D t.date)).map Tx.amount).sum + (((closings l).filter (fun t => D t.date)).map Tx.amount).sum := by
  unfold posted closings
  induction l with
  | nil => simp
  | cons t l ih => simp only [List.filter_cons]; cases hD : D t.date <;> cases hc : t.closingCr <;> simp [hD, ih] <;> ring

/-- **C160 (transaction list).** The lists have the same last line, that with the total. -/
theorem C160_total (comp : Str) (start stop : When) (l l1 : List Tx) (t t1 : Reports.Table) (h : SameBooks l l1) (hu : AllUnder comp (l ++ l1))
    (ht : transactionList comp start stop (seen l) = .ok t) (ht1 : transactionList comp start stop (seen l1) = .ok t1) : t1.getLast? = t.getLast? := by
  obtain ⟨m, m1, -, -, m4⟩ := Reports.Props.C11_transaction_list comp start stop (seen l) t ht
  obtain ⟨q, q1, -, -, q4⟩ := Reports.Props.C11_transaction_list comp start stop (seen l1) t1 ht1
  have e : ∀ k : List Tx, AllUnder comp k → (((seen k).filter (Reports.Spec.selected comp start stop)).map RTx.amount).sum = ((k.filter (fun t => between start stop t.date)).map Tx.amount).sum := by
    intro k hk
    unfold seen
    rw [List.filter_map, List.map_map]
    have : k.filter (Reports.Spec.selected comp start stop ∘ RTx.ofTx) = k.filter (fun t => between start stop t.date) := by
      apply List.filter_congr
      intro t ht
      simp [Reports.Spec.selected, RTx.ofTx, hk t ht, between]
    rw [this]
    rfl
  have hs : (q.map RTx.amount).sum = (m.map RTx.amount).sum := by
    rw [(q1.map _).sum_eq, (m1.map _).sum_eq, e l (fun t ht => hu t (by simp [ht])), e l1 (fun t ht => hu t (by simp [ht])), amounts_split, amounts_split _ l, amounts_lin, amounts_lin _ (posted l),
      linEq_of_flows h.1, ((h.2.1.filter _).map _).sum_eq]
  rw [m4, q4, hs, List.getLast?_concat, List.getLast?_concat]

/-! ## Runs -/

theorem closingTxs_flag (c : Chart) (src : Str) (date : Int) (w : WriteOff) : ∀ t ∈ closingTxs c src date w, t.closingDt = false := by
  have hg : ∀ d : Dict Ref, ∀ t ∈ grossClosings c src date d, t.closingDt = false := by
    intro d
    induction d with
    | nil => simp [grossClosings]
    | cons e d ih =>
      obtain ⟨k, v⟩ := e
      intro t ht
      rw [grossClosings] at ht
      rcases List.mem_append.1 ht with ht | ht
      · split at ht
        · simp only [List.mem_singleton] at ht; subst ht; rfl
        · split at ht
          · simp only [List.mem_singleton] at ht; subst ht; rfl
          · simp at ht
      · exact ih t ht
  have hi : ∀ d : Dict Ref, ∀ t ∈ incClosings c src date d, t.closingDt = false := by
    intro d
    induction d with
    | nil => simp [incClosings]
    | cons e d ih =>
      obtain ⟨k, v⟩ := e
      intro t ht
      rw [incClosings] at ht
      rcases List.mem_append.1 ht with ht | ht
      · split at ht
        · split at ht <;> (simp only [List.mem_singleton] at ht; subst ht; rfl)
        · split at ht
          · split at ht <;> (simp only [List.mem_singleton] at ht; subst ht; rfl)
          · simp at ht
      · exact ih t ht
  intro t ht
  unfold closingTxs grossSettle retainedClosings at ht
  dsimp only at ht
  simp only [List.mem_append] at ht
  rcases ht with ((ht | ht) | ht) | ht
  · exact hg _ t ht
  · exact hi _ t ht
  · split at ht
    · simp only [List.mem_singleton] at ht; subst ht; rfl
    · split at ht
      · simp only [List.mem_singleton] at ht; subst ht; rfl
      · simp at ht
  · split at ht
    · simp only [List.mem_singleton] at ht; subst ht; rfl
    · split at ht
      · simp only [List.mem_singleton] at ht; subst ht; rfl
      · simp at ht

theorem run_flag {m : Model} {e e' : Entity} (h : RunOf m e e') (hl : ∀ e ∈ m.entities, LoansOk (activitiesOfList e.components)) : ∀ t ∈ e'.transactions, t.closingDt = false := by
  intro t ht
  rcases (mem_split _ t).1 ht with hp | hc
  · rw [posted_of_run h hl] at hp
    unfold expected at hp
    obtain ⟨i, -, hp⟩ := List.mem_flatMap.1 hp
    obtain ⟨a, -, hp⟩ := List.mem_flatMap.1 hp
    unfold txsAt at hp
    split at hp
    · dsimp only at hp
      split at hp
      · simp only [List.mem_singleton] at hp; subst hp; rfl
      · split at hp
        · simp only [List.mem_singleton] at hp; subst hp; rfl
        · simp only [List.mem_cons, List.not_mem_nil, or_false] at hp; rcases hp with rfl | rfl <;> rfl
    · simp at hp
  · obtain ⟨Q, inv, -⟩ := run_facts (runEntityFor_of h)
    have hcl : t.closingCr = true := (List.mem_filter.1 hc).2
    obtain ⟨q, q1, q2⟩ := inv.closings t ht hcl
    obtain ⟨w, -, w2⟩ := inv.closed q q1
    have hin : t ∈ inWindow (yearStart m.clock.start q) (yearStart m.clock.start (q + 1)) e'.transactions := by
      unfold inWindow
      refine List.mem_filter.2 ⟨ht, ?_⟩
      have := yearStart_lt m.clock.start q
      unfold dayUs at this
      simp only [decide_eq_true_eq]
      omega
    rw [w2] at hin
    rcases List.mem_append.1 hin with hp | hp
    · unfold inWindow posted at hp
      simp [hcl] at hp
    · exact closingTxs_flag _ _ _ _ t hp

theorem posted_proceeds {s : Ledger.Structure} {m : Model} {e e' : Entity} (h : RunOf m e e') (hf : ∀ e ∈ m.entities, LoansOk (activitiesOfList e.components))
    (ha : ∀ a ∈ activitiesOfList e.components, Proceeds s m.clock.reset m.periodCount a) :
    ∀ t ∈ posted e'.transactions, 0 < t.amount ∧ Reports.Spec.typeOf s t.dt ≠ some .revenue ∧ Reports.Spec.typeOf s t.cr ≠ some .expense := by
  intro t ht
  rw [posted_of_run h hf] at ht
  unfold expected at ht
  obtain ⟨i, hi, ht⟩ := List.mem_flatMap.1 ht
  obtain ⟨a', ha', ht⟩ := List.mem_flatMap.1 ht
  obtain ⟨a, h1, rfl⟩ := List.mem_map.1 ha'
  exact ha a h1 i (List.mem_range.1 hi) t ht

/-- **C160 (basic activities).** A basic activity that debits no revenue account and credits no expense account proceeds, in every run. -/
theorem C160_basic (s : Ledger.Structure) (clk : Clock) (n : Nat) (a : Activity) (h : Forward s a) : Proceeds s clk n a := by
  intro i _ t ht
  obtain ⟨x, dt, cr, hk, h2, h3⟩ := h
  have hk' : (a.prepare clk n).kind = .basic x dt cr := by show a.kind.reset = _; rw [hk]; rfl
  unfold txsAt at ht
  split at ht
  · next hd =>
    have hx : 0 < x := by
      have := hd.2
      unfold Active at this
      rw [hk'] at this
      exact this
    rw [hk'] at ht
    simp only [List.mem_singleton] at ht; subst ht
    exact ⟨hx, h2, h3⟩
  · simp at ht

theorem execsBefore_mono (a : Activity) {i n : Nat} (h : i ≤ n) : execsBefore a i ≤ execsBefore a n := by
  induction n with
  | zero => rw [Nat.le_zero.1 h]
  | succ n ih =>
    rcases Nat.lt_succ_iff_lt_or_eq.1 (Nat.lt_succ_of_le h) with h | rfl
    · have := ih (by omega)
      rw [execsBefore_succ]; omega
    · exact le_refl _

/-- **C160 (loans).** A loan at a positive rate over `d` months proceeds in every run in which it executes no more than the `d + 1` times it takes to make it and pay it back, if the bank and the loan are neither revenue nor expense accounts and interest is not booked to a revenue account; wherever in the entity it is. -/
theorem C160_loan (s : Ledger.Structure) (clk : Clock) (n : Nat) (name b l t q : Str) (am rate : ℚ) (start interval : Int) (d : Nat) (descr : Option Str) (a : Activity)
    (h : newLoan name b l t am rate start d interval descr = .ok a) (hr : 0 < rate) (ha : 0 < am) (hd : 0 < d) (hn : execsBefore (a.prepare clk n) n ≤ d + 1)
    (hb : Reports.Spec.typeOf s b ≠ some .revenue ∧ Reports.Spec.typeOf s b ≠ some .expense) (hl : Reports.Spec.typeOf s l ≠ some .revenue ∧ Reports.Spec.typeOf s l ≠ some .expense) (ht : Reports.Spec.typeOf s t ≠ some .revenue) :
    Proceeds s clk n a ∧ Proceeds s clk n (a.setParentPath q) := by
  obtain ⟨p, hk, hz, hpos, hdec⟩ := C20_repaid name b l t am rate start interval d descr a h hr ha hd
  obtain ⟨p', hk', hw⟩ := loan_pays h hr hd
  have hpp : p = p' := by
    have := hk.symm.trans hk'
    simpa only [Kind.loan.injEq, true_and, and_true] using this
  subst hpp
  have hp : 0 < p := by
    have hA := annuity_pos (v := 1 / (1 + rate / 12)) (by positivity) hd
    by_contra hc
    have := mul_nonpos_of_nonpos_of_nonneg (not_lt.1 hc) hA.le
    linarith
  have main : ∀ x : Activity, x.kind = .loan b l t am rate p d 0 am → execsBefore (x.prepare clk n) n ≤ d + 1 → Proceeds s clk n x := by
    intro x hx hxn i hi u hu
    have hx' : (x.prepare clk n).kind = .loan b l t am rate p d 0 am := by show x.kind.reset = _; rw [hx]; rfl
    have hs := execsBefore_mono (x.prepare clk n) (i := i + 1) (n := n) (by omega)
    rw [execsBefore_succ] at hs
    have hdu := due_meets (x.prepare clk n) i
    unfold txsAt at hu
    split at hu
    · next hdd =>
      rw [decide_eq_true_iff.2 hdd] at hdu
      rw [← hdu, if_pos rfl] at hs
      rw [hx'] at hu
      dsimp only at hu
      split at hu
      · simp only [List.mem_singleton] at hu; subst hu
        exact ⟨ha, hb.1, hl.2⟩
      · next j hj =>
        simp only [List.mem_cons, List.not_mem_nil, or_false] at hu
        rcases hu with rfl | rfl
        · have := hpos j (by omega)
          exact ⟨by dsimp only; positivity, ht, hl.2⟩
        · exact ⟨hp, hl.1, hb.2⟩
    · simp at hu
  exact ⟨main a hk hn, main (a.setParentPath q) hk hn⟩

/-- **C160 (loans by the month).** Such is a loan that starts with a run by the month which is long enough for it to be paid back. -/
theorem C160_loan_months (s : Ledger.Structure) (clk : Clock) (n : Nat) (name b l t q : Str) (am rate : ℚ) (d : Nat) (descr : Option Str) (a : Activity)
    (h : newLoan name b l t am rate clk.start d 1 descr = .ok a) (hr : 0 < rate) (ha : 0 < am) (hd : 0 < d)
    (hm : clk.duration = .month) (hs : clk.start ≠ dtMin) (hmax : addMonths clk.start (d + 1) ≠ dtMax) (hn : d + 2 ≤ n) (hbl : b ≠ l) (htl : t ≠ l) (hbt : b ≠ t)
    (hb : Reports.Spec.typeOf s b ≠ some .revenue ∧ Reports.Spec.typeOf s b ≠ some .expense) (hl : Reports.Spec.typeOf s l ≠ some .revenue ∧ Reports.Spec.typeOf s l ≠ some .expense) (ht : Reports.Spec.typeOf s t ≠ some .revenue) :
    Proceeds s clk n a ∧ Proceeds s clk n (a.setParentPath q) :=
  C160_loan s clk n name b l t q am rate clk.start 1 d descr a h hr ha hd (C20_run name b l t am rate d descr a clk n h hr ha hd hm hs hmax hn hbl htl hbt).1.le hb hl ht

/-- the loan of the examples -/
example : Proceeds chart0.str clkM 9 actL' :=
  (C160_loan_months chart0.str clkM 9 "Loan".toList "Bank/Default".toList "Long Term Borrowing/Loan".toList "Expense/Interest".toList [] 1000 (12/100) 3 none actL' actL'_pays.1 (by norm_num) (by norm_num) (by norm_num)
    rfl (by decide +kernel) (by decide +kernel) (by norm_num) (by decide) (by decide) (by decide) (by decide +kernel) (by decide +kernel) (by decide +kernel)).1

/-- **C160 (runs).** A plan of basic activities and loans, none of which reverses revenue or expense in the run, and another plan with the same books have the same balance sheets and the same income statements, line by line up to order, on every date and over every time. -/
theorem C160_runs (s : Ledger.Structure) (m m1 : Model) (e e1 e' e1' : Entity) (h : RunOf m e e') (h1 : RunOf m1 e1 e1')
    (hl : ∀ x ∈ [m, m1], ∀ e ∈ x.entities, LoansOk (activitiesOfList e.components)) (hf : ∀ a ∈ activitiesOfList e.components, Proceeds s m.clock.reset m.periodCount a) (hf1 : ∀ a ∈ activitiesOfList e1.components, Proceeds s m1.clock.reset m1.periodCount a)
    (hs : Reports.Spec.typeOf s [] = none) (hb : SameBooks e'.transactions e1'.transactions) :
    (∀ stop b b1, sheetSums s stop (seen e'.transactions) = .ok b → sheetSums s stop (seen e1'.transactions) = .ok b1 →
      b1.assets.Perm b.assets ∧ b1.liabilities.Perm b.liabilities ∧ b1.equity.Perm b.equity) ∧
    (∀ start stop b b1, incomeSums s [] start stop (seen e'.transactions) = .ok b → incomeSums s [] start stop (seen e1'.transactions) = .ok b1 →
      b1.income.Perm b.income ∧ b1.expenses.Perm b.expenses) := by
  have p := posted_proceeds h (hl m (by simp)) hf
  have p1 := posted_proceeds h1 (hl m1 (by simp)) hf1
  have pos : ∀ t ∈ posted e'.transactions ++ posted e1'.transactions, 0 < t.amount := by
    intro t ht
    rcases List.mem_append.1 ht with ht | ht
    · exact (p t ht).1
    · exact (p1 t ht).1
  refine ⟨fun stop b b1 hb0 hb1 => C160_sheet_lines s stop _ _ b b1 hb pos hb0 hb1, fun start stop b b1 hb0 hb1 => C160_income_lines s [] start stop _ _ b b1 hb hs (fun _ _ => by simp) ?_ ?_ pos hb0 hb1⟩
  · intro t ht
    rcases List.mem_append.1 ht with ht | ht
    · exact run_flag h (hl m (by simp)) t ht
    · exact run_flag h1 (hl m1 (by simp)) t ht
  · intro t ht
    unfold posted at ht
    rw [List.filter_append] at ht
    rcases List.mem_append.1 ht with ht | ht
    · exact (p t ht).2
    · exact (p1 t ht).2

/-! ## Cases -/

/-- the loan of the examples, in a run of nine months -/
example : Proceeds chart0.str clkM 9 (actL'.setParentPath "/Plant/C".toList) ∧ execsBefore (actL'.prepare clkM 9) 9 = 4 :=
  ⟨(C160_loan chart0.str clkM 9 "Loan".toList "Bank/Default".toList "Long Term Borrowing/Loan".toList "Expense/Interest".toList "/Plant/C".toList 1000 (12/100) clkM.start 1 3 none actL' actL'_pays.1 (by norm_num) (by norm_num) (by norm_num)
    (by decide +kernel) (by decide +kernel) (by decide +kernel) (by decide +kernel)).2, by decide +kernel⟩


theorem forward_ore (name : String) (x : ℚ) (a b i : Int) : Forward chart0.str (ore name x a b i) :=
  ⟨x, "Bank/Default".toList, "Sales/Ore".toList, rfl, by decide +kernel, by decide +kernel⟩

/-- the figures of the reports over all time, if they can be made -/
def reportsOf (e : Entity) : Option (List (List (Str × ℚ))) :=
  match sheetSums chart0.str (.datetime dtMax) (seen e.transactions), incomeSums chart0.str [] (.datetime dtMin) (.datetime dtMax) (seen e.transactions) with
  | .ok b, .ok i => some [b.assets, b.liabilities, b.equity, i.income, i.expenses]
  | _, _ => none

/-- 5 a month, or 2 and 3 a month: over 14 months the bank has 70, the retained earnings are 60 and the income is 70, in both plans -/
example : ∃ a b : Entity, RunOf (monthsOf [ore "A" 5 dtMin dtMax 1] 14) (entWith [ore "A" 5 dtMin dtMax 1]) a ∧
    RunOf (monthsOf [ore "B" 2 dtMin dtMax 1, ore "C" 3 dtMin dtMax 1] 14) (entWith [ore "B" 2 dtMin dtMax 1, ore "C" 3 dtMin dtMax 1]) b ∧
    SameBooks a.transactions b.transactions ∧ (∀ x ∈ [ore "A" 5 dtMin dtMax 1, ore "B" 2 dtMin dtMax 1, ore "C" 3 dtMin dtMax 1], Forward chart0.str x) ∧ Reports.Spec.typeOf chart0.str [] = none ∧
    (∀ t ∈ a.transactions ++ b.transactions, t.closingDt = false) ∧
    reportsOf a = some [[("Bank/Default".toList, 70)], [], [("Retained Income/Retained Earnings".toList, 60)], [("Sales/Ore".toList, 70)], []] ∧ (reportsOf b).isSome = true ∧ reportsOf a = reportsOf b := by
  obtain ⟨a, ha, hf⟩ := runOf_val (m := monthsOf [ore "A" 5 dtMin dtMax 1] 14) (fun e => decide (reportsOf e = some [[("Bank/Default".toList, 70)], [], [("Retained Income/Retained Earnings".toList, 60)], [("Sales/Ore".toList, 70)], []])) rfl true (by decide +kernel)
  obtain ⟨b, hb, hg⟩ := runOf_val (m := monthsOf [ore "B" 2 dtMin dtMax 1, ore "C" 3 dtMin dtMax 1] 14) (fun e => decide (reportsOf e = some [[("Bank/Default".toList, 70)], [], [("Retained Income/Retained Earnings".toList, 60)], [("Sales/Ore".toList, 70)], []])) rfl true (by decide +kernel)
  have hl := loans_entWith [ore "A" 5 dtMin dtMax 1] [ore "B" 2 dtMin dtMax 1, ore "C" 3 dtMin dtMax 1] 14 14 (by decide)
  refine ⟨a, b, ha, hb, C158_amounts _ _ _ _ a b (ore "A" 5 dtMin dtMax 1) (ore "B" 2 dtMin dtMax 1) (ore "C" 3 dtMin dtMax 1) [] ha hb rfl rfl hl ⟨rfl, rfl⟩ ?_ ?_ ?_, ?_, by decide +kernel, ?_, of_decide_eq_true hf, by rw [of_decide_eq_true hg]; rfl, by rw [of_decide_eq_true hf, of_decide_eq_true hg]⟩
  · exact ⟨⟨rfl, rfl, rfl, rfl, rfl⟩, ⟨rfl, rfl, rfl, rfl, rfl⟩, by decide +kernel, by decide +kernel, by decide +kernel, rfl, rfl, rfl, rfl⟩
  · rw [acts_entWith]
  · rw [acts_entWith]
  · intro x hx
    simp only [List.mem_cons, List.not_mem_nil, or_false] at hx
    rcases hx with rfl | rfl | rfl <;> exact forward_ore _ _ _ _ _
  · intro t ht
    rcases List.mem_append.1 ht with ht | ht
    · exact run_flag ha (hl _ (by simp)) t ht
    · exact run_flag hb (hl _ (by simp)) t ht

/-- **C160 (violated).** With reversals the income statement depends on how the books were kept, not only on what they say: sales of 10 and refunds of 4 a month, over three months, are shown as 18 if the sales are listed first, as 26 if the refunds are, and as 20 if the refunds are listed first as 1 and 3; the balance sheets are the same. -/
theorem C160_reversal_violated :
    let refund := fun (name : String) (x : ℚ) => newBasic name.toList "Sales/Ore".toList "Bank/Default".toList x dtMin dtMax 1 none
    let sale := ore "S" 10 dtMin dtMax 1
    ∃ a b c : Entity, SameBooks a.transactions b.transactions ∧ SameBooks a.transactions c.transactions ∧
      RunOf (monthsOf [sale, refund "R" 4] 3) (entWith [sale, refund "R" 4]) a ∧ RunOf (monthsOf [refund "R" 4, sale] 3) (entWith [refund "R" 4, sale]) b ∧
      RunOf (monthsOf [refund "P" 1, refund "Q" 3, sale] 3) (entWith [refund "P" 1, refund "Q" 3, sale]) c ∧
      reportsOf a = some [[("Bank/Default".toList, 18)], [], [], [("Sales/Ore".toList, 18)], []] ∧
      reportsOf b = some [[("Bank/Default".toList, 18)], [], [], [("Sales/Ore".toList, 26)], []] ∧
      reportsOf c = some [[("Bank/Default".toList, 18)], [], [], [("Sales/Ore".toList, 20)], []] := by
  intro refund sale
  obtain ⟨a, ha, ra⟩ := runOf_val (m := monthsOf [sale, refund "R" 4] 3) (fun e => decide (reportsOf e = some [[("Bank/Default".toList, 18)], [], [], [("Sales/Ore".toList, 18)], []])) rfl true (by decide +kernel)
  obtain ⟨b, hb, rb⟩ := runOf_val (m := monthsOf [refund "R" 4, sale] 3) (fun e => decide (reportsOf e = some [[("Bank/Default".toList, 18)], [], [], [("Sales/Ore".toList, 26)], []])) rfl true (by decide +kernel)
  obtain ⟨c, hc, rc⟩ := runOf_val (m := monthsOf [refund "P" 1, refund "Q" 3, sale] 3) (fun e => decide (reportsOf e = some [[("Bank/Default".toList, 18)], [], [], [("Sales/Ore".toList, 20)], []])) rfl true (by decide +kernel)
  refine ⟨a, b, c, ?_, ?_, ha, hb, hc, of_decide_eq_true ra, of_decide_eq_true rb, of_decide_eq_true rc⟩
  · refine C158_order _ _ _ _ a b ha hb rfl rfl (loans_entWith _ _ _ _ (by decide)) ⟨rfl, rfl⟩ ?_
    rw [acts_entWith, acts_entWith]; exact List.Perm.swap _ _ _
  · refine C158_amounts _ _ _ _ a c (refund "R" 4) (refund "P" 1) (refund "Q" 3) [sale] ha hc rfl rfl (loans_entWith _ _ _ _ (by decide)) ⟨rfl, rfl⟩ ?_ ?_ ?_
    · exact ⟨⟨rfl, rfl, rfl, rfl, rfl⟩, ⟨rfl, rfl, rfl, rfl, rfl⟩, by decide +kernel, by decide +kernel, by decide +kernel, rfl, rfl, rfl, rfl⟩
    · rw [acts_entWith]; exact List.Perm.swap _ _ _
    · rw [acts_entWith]

/-- a loan of `x` at 12 % over three months from January 2017 -/
def loan12 (name : String) (x : ℚ) : Activity :=
  match newLoan name.toList "Bank/Default".toList "Long Term Borrowing/Loan".toList "Expense/Interest".toList x (12/100) (mkDateTime 2017 1 1 0) 3 1 none with
  | .ok a => a
  | .error _ => ore name x dtMin dtMax 1

/-- a loan of 1000, or loans of 400 and 600 on the same terms: the same books, so the reports after a year have the same lines -/
example : ∃ a b : Entity, RunOf (monthsOf [loan12 "A" 1000] 13) (entWith [loan12 "A" 1000]) a ∧
      RunOf (monthsOf [loan12 "B" 400, loan12 "C" 600] 13) (entWith [loan12 "B" 400, loan12 "C" 600]) b ∧ SameBooks a.transactions b.transactions ∧ 5 < a.transactions.length ∧
      (∀ stop x y, sheetSums chart0.str stop (seen a.transactions) = .ok x → sheetSums chart0.str stop (seen b.transactions) = .ok y → y.assets.Perm x.assets ∧ y.liabilities.Perm x.liabilities ∧ y.equity.Perm x.equity) ∧
      (∀ start stop x y, incomeSums chart0.str [] start stop (seen a.transactions) = .ok x → incomeSums chart0.str [] start stop (seen b.transactions) = .ok y → y.income.Perm x.income ∧ y.expenses.Perm x.expenses) := by
  obtain ⟨a, ha, hf⟩ := runOf_val (m := monthsOf [loan12 "A" 1000] 13) (fun e => decide (5 < e.transactions.length)) rfl true (by decide +kernel)
  obtain ⟨b, hb, -⟩ := runOf_val (m := monthsOf [loan12 "B" 400, loan12 "C" 600] 13) (fun e => decide (5 < e.transactions.length)) rfl true (by decide +kernel)
  have hl := loans_entWith [loan12 "A" 1000] [loan12 "B" 400, loan12 "C" 600] 13 13 (by decide +kernel)
  have mk : ∀ (n : String) (x : ℚ), newLoan n.toList "Bank/Default".toList "Long Term Borrowing/Loan".toList "Expense/Interest".toList x (12/100) (mkDateTime 2017 1 1 0) 3 1 none = .ok (loan12 n x) := by
    intro n x
    unfold loan12 newLoan monthlyPayment
    rw [if_neg (by norm_num)]
    dsimp only
    rw [if_neg (by norm_num)]
  have hs : SameBooks a.transactions b.transactions := C158_amounts _ _ _ _ a b (loan12 "A" 1000) (loan12 "B" 400) (loan12 "C" 600) [] ha hb rfl rfl hl ⟨rfl, rfl⟩
    (C158_loans "A".toList "B".toList "C".toList "Bank/Default".toList "Long Term Borrowing/Loan".toList "Expense/Interest".toList 400 600 (12/100) (mkDateTime 2017 1 1 0) 3 1 none none none _ _ _ (by norm_num) (by norm_num)
      (by have := mk "A" 1000; norm_num at this ⊢; exact this) (mk "B" 400) (mk "C" 600)) (by rw [acts_entWith]) (by rw [acts_entWith])
  have pr : ∀ (n : String) (x : ℚ), 0 < x → execsBefore ((loan12 n x).prepare (Clock.new (mkDateTime 2017 1 1 0) .month 1).reset 13) 13 ≤ 4 → Proceeds chart0.str (Clock.new (mkDateTime 2017 1 1 0) .month 1).reset 13 (loan12 n x) :=
    fun n x hx hn => (C160_loan chart0.str _ 13 n.toList _ _ _ [] x (12/100) (mkDateTime 2017 1 1 0) 1 3 none _ (mk n x) (by norm_num) hx (by norm_num) hn (by decide +kernel) (by decide +kernel) (by decide +kernel)).1
  refine ⟨a, b, ha, hb, hs, of_decide_eq_true hf, C160_runs chart0.str _ _ _ _ a b ha hb hl ?_ ?_ (by decide +kernel) hs⟩
  · intro x hx
    rw [acts_entWith, List.mem_singleton] at hx
    subst hx
    exact pr "A" 1000 (by norm_num) (by decide +kernel)
  · intro x hx
    rw [acts_entWith] at hx
    simp only [List.mem_cons, List.not_mem_nil, or_false] at hx
    rcases hx with rfl | rfl
    · exact pr "B" 400 (by norm_num) (by decide +kernel)
    · exact pr "C" 600 (by norm_num) (by decide +kernel)

end Auxi.Business.Props
