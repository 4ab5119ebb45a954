import Verif.Spec.Parts
import Verif.Props.YearEnd
import Verif.Props.Independence

/-! # Ledgers that move the same amounts have the same year ends -/
namespace Auxi.Business
open Auxi.Business Spec Time Calendar Ledger

/-- a weighted sum of the amounts, the weight depending on accounts and date -/
def lin (g : Str → Str → Int → ℚ) (txs : List Tx) : ℚ := (txs.map (fun t => g t.dt t.cr t.date * t.amount)).sum

theorem lin_append (g : Str → Str → Int → ℚ) (a b : List Tx) : lin g (a ++ b) = lin g a + lin g b := by simp [lin]

theorem lin_filter (g : Str → Str → Int → ℚ) (p : Str → Str → Int → Bool) (txs : List Tx) :
    lin g (txs.filter (fun t => p t.dt t.cr t.date)) = lin (fun a b d => if p a b d then g a b d else 0) txs := by
  induction txs with
  | nil => rfl
  | cons t ts ih =>
    rw [List.filter_cons]
    have e : ∀ l, lin (fun a b d => if p a b d then g a b d else 0) (t :: l) = (if p t.dt t.cr t.date then g t.dt t.cr t.date else 0) * t.amount + lin (fun a b d => if p a b d then g a b d else 0) l := by
      intro l; simp [lin]
    rw [e]
    split
    · next h => simp only [lin, List.map_cons, List.sum_cons] at ih ⊢; rw [ih]
    · next h => rw [ih]; ring

/-- a weighted sum of the entries of a dict -/
def dlin (f : Ref → ℚ) (d : Dict Ref) : ℚ := (d.map (fun e => f e.1 * e.2)).sum

theorem dlin_add (f : Ref → ℚ) (k : Ref) (v : ℚ) (d : Dict Ref) : dlin f (dictAdd k v d) = dlin f d + f k * v := by
  induction d with
  | nil => simp [dictAdd, dlin]
  | cons e d ih =>
    obtain ⟨k', w⟩ := e
    unfold dictAdd
    split
    · next h => subst h; simp only [dlin, List.map_cons, List.sum_cons]; ring
    · simp only [dlin, List.map_cons, List.sum_cons] at ih ⊢; rw [ih]; ring

theorem mem_keys_add (k : Ref) (v : ℚ) (d : Dict Ref) (x : Ref) : x ∈ (dictAdd k v d).map (·.1) ↔ x = k ∨ x ∈ d.map (·.1) := by
  induction d with
  | nil => simp [dictAdd]
  | cons e d ih =>
    obtain ⟨k', w⟩ := e
    unfold dictAdd
    split
    · next h => subst h; simp
    · simp only [List.map_cons, List.mem_cons, ih]; tauto

theorem nodup_add (k : Ref) (v : ℚ) (d : Dict Ref) (h : (d.map (·.1)).Nodup) : ((dictAdd k v d).map (·.1)).Nodup := by
  induction d with
  | nil => simp [dictAdd]
  | cons e d ih =>
    obtain ⟨k', w⟩ := e
    simp only [List.map_cons, List.nodup_cons] at h
    unfold dictAdd
    split
    · next hk => simpa using h
    · next hk =>
      simp only [List.map_cons, List.nodup_cons, mem_keys_add]
      exact ⟨fun hh => hh.elim hk h.1, ih h.2⟩

/-- where the amount of a transaction with these accounts goes, and with what sign (`true`: the gross profit dict) -/
def target (c : Chart) (dt cr : Str) : Option (Bool × Ref × ℚ) :=
  match getRef c.str cr, getRef c.str dt with
  | .ok (some k), .ok (some d) =>
    if k.inSales then some (true, k, 1)
    else if d.inSales then some (true, d, -1)
    else if k.inCos then some (true, k, 1)
    else if d.inCos then some (true, d, -1)
    else if k.accountType = .revenue then some (false, k, 1)
    else if d.accountType = .revenue then some (false, d, -1)
    else if k.accountType = .expense then some (false, k, -1)
    else if d.accountType = .expense then some (false, d, 1)
    else none
  | .ok (some k), .ok none =>
    if k.inSales then some (true, k, 1)
    else if k.inCos then some (true, k, 1)
    else if k.accountType = .revenue then some (false, k, 1)
    else none
  | .ok none, .ok (some d) =>
    if d.inSales then some (true, d, -1)
    else if d.inCos then some (true, d, -1)
    else none
  | _, _ => none

/-- the dicts with an amount brought where it goes -/
def bring (w : WriteOff) (v : ℚ) : Option (Bool × Ref × ℚ) → WriteOff
  | some (true, k, s) => { w with gross := dictAdd k (s * v) w.gross }
  | some (false, k, s) => { w with inc := dictAdd k (s * v) w.inc }
  | none => w

theorem classify_bring {c : Chart} {w w' : WriteOff} {t : Tx} (h : classify c w t = .ok w') : w' = bring w t.amount (target c t.dt t.cr) := by
  unfold classify at h
  unfold target
  cases h1 : getRef c.str t.cr with
  | error e => rw [h1] at h; cases h
  | ok o1 =>
    cases h2 : getRef c.str t.dt with
    | error e => rw [h1, h2] at h; cases h
    | ok o2 =>
      rw [h1, h2] at h
      simp only [bind, Except.bind] at h
      cases o1 with
      | none =>
        cases o2 with
        | none => cases h
        | some d =>
          dsimp only at h ⊢
          split_ifs at h ⊢ <;> first | (cases h; done) | (simp only [pure, Except.pure, Except.ok.injEq] at h; rw [← h]; simp [bring])
      | some k =>
        cases o2 with
        | none =>
          dsimp only at h ⊢
          split_ifs at h ⊢ <;> first | (cases h; done) | (simp only [pure, Except.pure, Except.ok.injEq] at h; rw [← h]; simp [bring])
        | some d =>
          dsimp only at h ⊢
          split_ifs at h ⊢ <;> first | (cases h; done) | (simp only [pure, Except.pure, Except.ok.injEq] at h; rw [← h]; simp [bring])

/-- the weight of a transaction in a weighted sum of a dict -/
def weight (f : Ref → ℚ) (b : Bool) : Option (Bool × Ref × ℚ) → ℚ
  | some (b', k, s) => if b' = b then f k * s else 0
  | none => 0

theorem classifyAll_lin {c : Chart} : ∀ (txs : List Tx) {w w' : WriteOff}, classifyAll c w txs = .ok w' →
    (∀ f, dlin f w'.gross = dlin f w.gross + lin (fun dt cr _ => weight f true (target c dt cr)) txs) ∧
    (∀ f, dlin f w'.inc = dlin f w.inc + lin (fun dt cr _ => weight f false (target c dt cr)) txs) ∧
    ((w.gross.map (·.1)).Nodup → (w'.gross.map (·.1)).Nodup) ∧ ((w.inc.map (·.1)).Nodup → (w'.inc.map (·.1)).Nodup) := by
  intro txs
  induction txs with
  | nil =>
    intro w w' h
    simp only [classifyAll, Except.ok.injEq] at h
    subst h
    simp [lin]
  | cons t txs ih =>
    intro w w' h
    simp only [classifyAll] at h
    split at h
    · cases h
    · next w1 h1 =>
      obtain ⟨i1, i2, i3, i4⟩ := ih h
      have hb := classify_bring h1
      refine ⟨fun f => ?_, fun f => ?_, fun hn => i3 ?_, fun hn => i4 ?_⟩
      · rw [i1, hb]
        have e : lin (fun dt cr _ => weight f true (target c dt cr)) (t :: txs) = weight f true (target c t.dt t.cr) * t.amount + lin (fun dt cr _ => weight f true (target c dt cr)) txs := by simp [lin]
        rw [e]
        rcases target c t.dt t.cr with _ | ⟨b, k, s⟩
        · simp [bring, weight]
        · cases b <;> simp [bring, weight, dlin_add]
          ring
      · rw [i2, hb]
        have e : lin (fun dt cr _ => weight f false (target c dt cr)) (t :: txs) = weight f false (target c t.dt t.cr) * t.amount + lin (fun dt cr _ => weight f false (target c dt cr)) txs := by simp [lin]
        rw [e]
        rcases target c t.dt t.cr with _ | ⟨b, k, s⟩
        · simp [bring, weight]
        · cases b <;> simp [bring, weight, dlin_add]
          ring
      · rw [hb]
        rcases target c t.dt t.cr with _ | ⟨b, k, s⟩
        · exact hn
        · cases b
          · exact hn
          · exact nodup_add _ _ _ hn
      · rw [hb]
        rcases target c t.dt t.cr with _ | ⟨b, k, s⟩
        · exact hn
        · cases b
          · exact nodup_add _ _ _ hn
          · exact hn

/-- the entries that are not zero -/
def nz (d : Dict Ref) : Dict Ref := d.filter (fun e => e.2 ≠ 0)

theorem dlin_ind (k : Ref) : ∀ d : Dict Ref, (d.map (·.1)).Nodup → dlin (fun r => if r = k then 1 else 0) d = if k ∈ d.map (·.1) then dlin (fun r => if r = k then 1 else 0) d else 0 := by
  intro d _
  split
  · rfl
  · next h =>
    apply List.sum_eq_zero
    intro x hx
    obtain ⟨e, he, rfl⟩ := List.mem_map.1 hx
    have : e.1 ≠ k := fun hk => h (List.mem_map.2 ⟨e, he, hk⟩)
    simp [this]

theorem dlin_entry {d : Dict Ref} (hn : (d.map (·.1)).Nodup) {k : Ref} {v : ℚ} (h : (k, v) ∈ d) : dlin (fun r => if r = k then 1 else 0) d = v := by
  induction d with
  | nil => simp at h
  | cons e d ih =>
    simp only [List.map_cons, List.nodup_cons] at hn
    have e' : ∀ l, dlin (fun r => if r = k then 1 else 0) (e :: l) = (if e.1 = k then 1 else 0) * e.2 + dlin (fun r => if r = k then 1 else 0) l := by intro l; simp [dlin]
    rw [e']
    rcases List.mem_cons.1 h with h | h
    · subst h
      rw [dlin_ind k d hn.2, if_neg hn.1]; simp
    · have : e.1 ≠ k := fun hk => hn.1 (hk ▸ List.mem_map.2 ⟨_, h, rfl⟩)
      rw [ih hn.2 h, if_neg this]; ring

theorem mem_nz_of {d d1 : Dict Ref} (hn : (d.map (·.1)).Nodup) (hn1 : (d1.map (·.1)).Nodup) (h : ∀ f, dlin f d = dlin f d1) {e : Ref × ℚ} (he : e ∈ nz d) : e ∈ nz d1 := by
  obtain ⟨k, v⟩ := e
  obtain ⟨h1, h2⟩ := List.mem_filter.1 he
  have h2' : v ≠ 0 := by simpa using h2
  have hv := dlin_entry hn h1
  rw [h] at hv
  have hk : k ∈ d1.map (·.1) := by
    by_contra hk
    rw [dlin_ind k d1 hn1, if_neg hk] at hv
    exact h2' hv.symm
  obtain ⟨⟨k', v'⟩, h3, h4⟩ := List.mem_map.1 hk
  dsimp only at h4
  subst h4
  rw [dlin_entry hn1 h3] at hv
  subst hv
  exact List.mem_filter.2 ⟨h3, h2⟩

theorem nz_perm {d d1 : Dict Ref} (hn : (d.map (·.1)).Nodup) (hn1 : (d1.map (·.1)).Nodup) (h : ∀ f, dlin f d = dlin f d1) : (nz d).Perm (nz d1) :=
  (List.perm_ext_iff_of_nodup ((List.Nodup.of_map _ hn).filter _) ((List.Nodup.of_map _ hn1).filter _)).2
    (fun _ => ⟨mem_nz_of hn hn1 h, mem_nz_of hn1 hn (fun f => (h f).symm)⟩)

theorem grossClosings_nz (c : Chart) (src : Str) (date : Int) (d : Dict Ref) : grossClosings c src date d = (nz d).flatMap (fun e => grossClosings c src date [e]) := by
  induction d with
  | nil => rfl
  | cons e d ih =>
    obtain ⟨k, v⟩ := e
    have hc : grossClosings c src date ((k, v) :: d) = grossClosings c src date [(k, v)] ++ grossClosings c src date d := by simp [grossClosings]
    rw [hc, ih]
    by_cases hv : v = 0
    · subst hv; simp [nz, grossClosings]
    · simp [nz, hv]

theorem incClosings_nz (c : Chart) (src : Str) (date : Int) (d : Dict Ref) : incClosings c src date d = (nz d).flatMap (fun e => incClosings c src date [e]) := by
  induction d with
  | nil => rfl
  | cons e d ih =>
    obtain ⟨k, v⟩ := e
    have hc : incClosings c src date ((k, v) :: d) = incClosings c src date [(k, v)] ++ incClosings c src date d := by simp [incClosings]
    rw [hc, ih]
    by_cases hv : v = 0
    · subst hv; simp [nz, incClosings]
    · simp [nz, hv]

theorem closingTxs_perm {w w1 : WriteOff} (c : Chart) (src : Str) (date : Int)
    (g : ∀ f, dlin f w.gross = dlin f w1.gross) (i : ∀ f, dlin f w.inc = dlin f w1.inc)
    (ng : (w.gross.map (·.1)).Nodup) (ng1 : (w1.gross.map (·.1)).Nodup) (ni : (w.inc.map (·.1)).Nodup) (ni1 : (w1.inc.map (·.1)).Nodup) :
    (closingTxs c src date w).Perm (closingTxs c src date w1) := by
  have hg : grossTotal w.gross = grossTotal w1.gross := by
    rw [grossTotal_eq, grossTotal_eq]
    have := g (fun _ => 1)
    simpa [dlin, dictSum] using this
  have hi : incTotal (grossTotal w.gross) w.inc = incTotal (grossTotal w1.gross) w1.inc := by
    rw [hg, incTotal_eq, incTotal_eq]
    have := i sgn
    simp only [dlin] at this
    simp only [incSum, this]
  unfold closingTxs
  dsimp only
  rw [hi, hg, grossClosings_nz, incClosings_nz, grossClosings_nz c src date w1.gross, incClosings_nz c src date w1.inc]
  exact ((((nz_perm ng ng1 g).flatMap_right _).append ((nz_perm ni ni1 i).flatMap_right _)).append_right _).append_right _

/-- the amounts moved between accounts by two lists of transactions, weighted in any way, are the same -/
def LinEq (l l1 : List Tx) : Prop := ∀ g, lin g l1 = lin g l

theorem linEq_window {l l1 : List Tx} (h : LinEq l l1) (a b : Int) : LinEq (inWindow a b l) (inWindow a b l1) := by
  intro g
  have := h (fun x y d => if decide (a ≤ d ∧ d ≤ b - 1000000) then g x y d else 0)
  rw [← lin_filter, ← lin_filter] at this
  exact this

theorem closed_perm {c : Chart} {l l1 : List Tx} {w w1 : WriteOff} (h : LinEq l l1) (hw : classifyAll c ⟨[], []⟩ l = .ok w) (hw1 : classifyAll c ⟨[], []⟩ l1 = .ok w1) (src : Str) (date : Int) :
    (closingTxs c src date w1).Perm (closingTxs c src date w) := by
  obtain ⟨a1, a2, a3, a4⟩ := classifyAll_lin l hw
  obtain ⟨b1, b2, b3, b4⟩ := classifyAll_lin l1 hw1
  exact closingTxs_perm c src date (fun f => by rw [b1, a1, h]) (fun f => by rw [b2, a2, h]) (b3 List.nodup_nil) (a3 List.nodup_nil) (b4 List.nodup_nil) (a4 List.nodup_nil)

theorem closings_of_posted {l : List Tx} (t : Tx) (ht : t ∈ closings (posted l)) : False := by
  unfold closings posted at ht
  simp at ht

theorem count_closings (t : Tx) (ht : t.closingCr = true) (l : List Tx) : (closings l).count t = l.count t := by
  unfold closings
  rw [List.count_filter]; exact ht

theorem count_posted (t : Tx) (ht : t.closingCr = true) (a b : Int) (l : List Tx) : (inWindow a b (posted l)).count t = 0 := by
  rw [List.count_eq_zero]
  intro h
  unfold inWindow posted at h
  simp [ht] at h

/-- Two runs that post the same amounts between the same accounts on the same dates have the same closing transactions. -/
theorem closings_perm {clk : Clock} {n : Nat} {e e' e1 e1' : Entity} (h : runEntityFor clk n e = .ok e') (h1 : runEntityFor clk n e1 = .ok e1')
    (hc : e1.chart = e.chart) (hp : e1.path = e.path) (hq : LinEq (posted e'.transactions) (posted e1'.transactions)) :
    (closings e1'.transactions).Perm (closings e'.transactions) := by
  obtain ⟨Q, inv, hy⟩ := Props.run_facts h
  obtain ⟨Q1, inv1, hy1⟩ := Props.run_facts h1
  have hQ : Q1 = Q := by
    obtain ⟨R, r1, r2⟩ := Props.C29_years_closed clk n e e' h
    obtain ⟨R1, s1, s2⟩ := Props.C29_years_closed clk n e1 e1' h1
    have e1 : R = Q := by have := congrArg List.length (r1.symm.trans hy); simpa using this
    have e2 : R1 = Q1 := by have := congrArg List.length (s1.symm.trans hy1); simpa using this
    rw [← e1, ← e2]
    apply le_antisymm
    · by_contra hh
      have := (s2 R).1 (by omega)
      exact absurd ((r2 R).2 this) (by omega)
    · by_contra hh
      have := (r2 R1).1 (by omega)
      exact absurd ((s2 R1).2 this) (by omega)
  subst hQ
  rw [List.perm_iff_count]
  intro t
  by_cases ht : t.closingCr = true
  · rw [count_closings t ht, count_closings t ht]
    by_cases hd : ∃ q, q < Q1 ∧ t.date = yearStart clk.start (q + 1) - 1000000
    · obtain ⟨q, q1, q2⟩ := hd
      obtain ⟨w, w1, w2⟩ := inv.closed q q1
      obtain ⟨v, v1, v2⟩ := inv1.closed q q1
      have hin : ∀ l : List Tx, l.count t = (inWindow (yearStart clk.start q) (yearStart clk.start (q + 1)) l).count t := by
        intro l
        unfold inWindow
        rw [List.count_filter]
        have := yearStart_lt clk.start q
        unfold dayUs at this
        simp only [decide_eq_true_eq]
        omega
      rw [hin, hin e'.transactions, w2, v2, List.count_append, List.count_append, count_posted t ht, count_posted t ht, hc, hp]
      congr 1
      rw [hc] at v1
      exact List.perm_iff_count.1 (closed_perm (linEq_window hq _ _) w1 v1 _ _) t
    · rw [List.count_eq_zero.2 (fun hm => hd (inv.closings t hm ht)), List.count_eq_zero.2 (fun hm => hd (inv1.closings t hm ht))]
  · rw [List.count_eq_zero.2, List.count_eq_zero.2]
    · intro hm; exact ht (List.mem_filter.1 hm).2
    · intro hm; exact ht (List.mem_filter.1 hm).2

theorem flow_lin (dt cr : Str) (D : Int → Bool) (txs : List Tx) : flow dt cr D txs = lin (fun a b d => if a = dt ∧ b = cr ∧ D d = true then 1 else 0) txs := by
  unfold flow
  induction txs with
  | nil => rfl
  | cons t ts ih =>
    have e : lin (fun a b d => if a = dt ∧ b = cr ∧ D d = true then 1 else 0) (t :: ts) = (if t.dt = dt ∧ t.cr = cr ∧ D t.date = true then 1 else 0) * t.amount + lin (fun a b d => if a = dt ∧ b = cr ∧ D d = true then 1 else 0) ts := by simp [lin]
    rw [e, ← ih, List.filter_cons]
    by_cases h : t.dt = dt ∧ t.cr = cr ∧ D t.date = true
    · rw [if_pos h, if_pos (by simpa using h)]; simp
    · rw [if_neg h, if_neg (by simpa using h)]; simp

theorem netCredit_lin (acc : Str) (D : Int → Bool) (txs : List Tx) : netCredit acc (txs.filter (fun t => D t.date)) =
    lin (fun a b d => if D d then (if b = acc then 1 else 0) - (if a = acc then 1 else 0) else 0) txs := by
  have := lin_filter (fun a b _ => (if b = acc then 1 else 0) - (if a = acc then 1 else 0)) (fun _ _ d => D d) txs
  rw [← this]
  unfold netCredit lin
  congr 1
  apply List.map_congr_left
  intro t _
  by_cases h1 : t.cr = acc <;> by_cases h2 : t.dt = acc <;> simp [h1, h2]

theorem lin_split (g : Str → Str → Int → ℚ) (l : List Tx) : lin g l = lin g (posted l) + lin g (closings l) := by
  unfold posted closings
  induction l with
  | nil => simp [lin]
  | cons t l ih =>
    cases ht : t.closingCr <;> simp [List.filter_cons, ht, lin] at ih ⊢ <;> rw [ih] <;> ring

/-- All a ledger says follows from the amounts posted. -/
theorem sameBooks_of {clk : Clock} {n : Nat} {e e' e1 e1' : Entity} (h : runEntityFor clk n e = .ok e') (h1 : runEntityFor clk n e1 = .ok e1')
    (hc : e1.chart = e.chart) (hp : e1.path = e.path) (hq : LinEq (posted e'.transactions) (posted e1'.transactions)) : SameBooks e'.transactions e1'.transactions := by
  have hcl := closings_perm h h1 hc hp hq
  refine ⟨fun dt cr D => ?_, hcl, fun acc D => ?_⟩
  · rw [flow_lin, flow_lin]; exact hq _
  · rw [netCredit_lin, netCredit_lin, lin_split, lin_split _ e'.transactions, hq]
    congr 1
    unfold lin
    exact (hcl.map _).sum_eq

end Auxi.Business
