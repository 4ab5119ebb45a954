import Verif.Proofs.Schedule
import Verif.Proofs.Ledger
import Verif.Spec.YearEnd
import Mathlib.Tactic.Linarith
namespace Auxi.Business
open Spec Ledger Ledger.Spec

/-! ## Lookup of references -/

theorem splitSlash_eq (s : Str) : splitSlash s = segments s := by
  induction s with
  | nil => rfl
  | cons c cs ih => simp only [splitSlash, segments, ih]; rfl

theorem find_findIdx (l : List Account) (x : Str) :
    (l.find? (fun c => c.name = x) = none ↔ l.findIdx? (fun c => c.name = x) = none) ∧
    ∀ c, l.find? (fun c => c.name = x) = some c ↔ ∃ i, l.findIdx? (fun c => c.name = x) = some i ∧ l[i]? = some c := by
  induction l with
  | nil => simp
  | cons a l ih =>
    by_cases h : a.name = x
    · simp [h, List.findIdx?_cons]
    · obtain ⟨h1, h2⟩ := ih
      simp only [List.find?_cons, List.findIdx?_cons, h, decide_false, Bool.false_eq_true, if_false]
      refine ⟨by rw [h1]; simp, fun c => ?_⟩
      rw [h2]
      constructor
      · rintro ⟨i, h3, h4⟩; exact ⟨i + 1, by simp [h3], by simpa using h4⟩
      · rintro ⟨i, h3, h4⟩
        simp only [Option.map_eq_some_iff] at h3
        obtain ⟨j, h3, rfl⟩ := h3
        exact ⟨j, h3, by simpa using h4⟩

theorem childRef_spec : ∀ (segs : List Str) (pre : List Nat) (a : Account), segs ≠ [] →
    (∀ b, walk a.accounts segs = some b → ∃ pos, childRef pre a segs = .ok ⟨pre ++ pos, b.path, b.accountType⟩ ∧
      a.at? pos = some b ∧ namesAlong a.accounts pos = some segs ∧ pos ≠ []) ∧
    (walk a.accounts segs = none → childRef pre a segs = .error .indexError) := by
  intro segs
  induction segs with
  | nil => intro pre a h; exact absurd rfl h
  | cons x r ih =>
    intro pre a _
    obtain ⟨f1, f2⟩ := find_findIdx a.accounts x
    cases r with
    | nil =>
      simp only [walk, childRef]
      constructor
      · intro b hb
        obtain ⟨i, h1, h2⟩ := (f2 b).1 hb
        refine ⟨[i], by simp [h1, h2], by simp [Account.at?, h2], ?_, by simp⟩
        have : b.name = x := by have := List.find?_some hb; simpa using this
        simp [namesAlong, h2, this]
      · intro hn
        rw [f1.1 hn]
    | cons y r =>
      simp only [walk, childRef]
      cases hf : a.accounts.find? (fun c => c.name = x) with
      | none => simp [f1.1 hf]
      | some c =>
        obtain ⟨i, h1, h2⟩ := (f2 c).1 hf
        simp only [h1, h2]
        obtain ⟨g1, g2⟩ := ih (pre ++ [i]) c (by simp)
        refine ⟨fun b hb => ?_, g2⟩
        obtain ⟨pos, p1, p2, p3, _⟩ := g1 b hb
        have hx : c.name = x := by have := List.find?_some hf; simpa using this
        refine ⟨i :: pos, by rw [p1]; simp, by simp [Account.at?, h2, p2], ?_, by simp⟩
        simp [namesAlong, h2, p3, hx]

/-- `getRef` finds the same account as `walk`, hence as `get_account`. -/
theorem getRef_spec (s : Structure) (p : Str) :
    (∀ b, walk s.accounts (segments p) = some b → ∃ pos, getRef s p = .ok (some ⟨pos, b.path, b.accountType⟩) ∧
      forestAt? s.accounts pos = some b ∧ namesAlong s.accounts pos = some (segments p) ∧
      ∃ n, (segments p).head? = some n ∧ s.accounts.findIdx? (fun a => a.name = n) = pos.head? ∧
        pos.length = (segments p).length) ∧
    (walk s.accounts (segments p) = none → getRef s p = .ok none ∨ getRef s p = .error .indexError) := by
  unfold getRef
  rw [splitSlash_eq]
  have hlen : ∀ (l : List Account) (pos : List Nat) (ns : List Str), namesAlong l pos = some ns → pos.length = ns.length := by
    intro l pos
    induction pos generalizing l with
    | nil => intro ns h; simp [namesAlong] at h; subst h; rfl
    | cons i pos ih =>
      intro ns h
      simp only [namesAlong] at h
      cases hc : l[i]? with
      | none => simp [hc] at h
      | some c =>
        simp only [hc, Option.map_eq_some_iff] at h
        obtain ⟨m, hm, rfl⟩ := h
        simp [ih _ _ hm]
  cases hs : segments p with
  | nil => exact absurd hs (segments_ne_nil p)
  | cons x r =>
    obtain ⟨f1, f2⟩ := find_findIdx s.accounts x
    cases r with
    | nil =>
      simp only [walk]
      constructor
      · intro b hb
        obtain ⟨i, h1, h2⟩ := (f2 b).1 hb
        have : b.name = x := by have := List.find?_some hb; simpa using this
        refine ⟨[i], by simp [h1, h2], by simp [forestAt?, Account.at?, h2], by simp [namesAlong, h2, this], x, rfl, by simp [h1], rfl⟩
      · intro hn; left; rw [f1.1 hn]
    | cons y r =>
      simp only [walk]
      cases hf : s.accounts.find? (fun c => c.name = x) with
      | none => simp [f1.1 hf]
      | some c =>
        obtain ⟨i, h1, h2⟩ := (f2 c).1 hf
        have hx : c.name = x := by have := List.find?_some hf; simpa using this
        simp only [h1, h2]
        obtain ⟨g1, g2⟩ := childRef_spec (y :: r) [i] c (by simp)
        constructor
        · intro b hb
          obtain ⟨pos, p1, p2, p3, p4⟩ := g1 b hb
          have hn : namesAlong s.accounts (i :: pos) = some (x :: y :: r) := by simp [namesAlong, h2, p3, hx]
          refine ⟨i :: pos, by rw [p1]; rfl, by simp [forestAt?, h2, p2], hn, x, rfl, by simp [h1], hlen _ _ _ hn⟩
        · intro hn; right; rw [g2 hn]; rfl

theorem join_segments (p : Str) : joinSlash (segments p) = p := by
  induction p with
  | nil => rfl
  | cons c cs ih =>
    unfold segments
    split
    · rename_i h; subst h
      cases hs : segments cs with
      | nil => exact absurd hs (segments_ne_nil cs)
      | cons s r => rw [joinSlash, ← hs, ih]; rfl
    · cases hs : segments cs with
      | nil => exact absurd hs (segments_ne_nil cs)
      | cons s r =>
        rw [hs] at ih
        cases r with
        | nil => simp only [joinSlash] at ih ⊢; rw [ih]
        | cons s2 r => simp only [joinSlash] at ih ⊢; rw [← ih]; rfl

/-- the reference a path denotes, if any -/
def ref (c : Chart) (p : Str) : Option Ref := match getRef c.str p with
  | .ok r => r
  | .error _ => none

/-- an account that goes to the gross profit -/
def Ref.trading (r : Ref) : Bool := r.inSales || r.inCos
/-- an account considered by the year end procedure -/
def Ref.income (r : Ref) : Bool := r.trading || r.accountType = .revenue || r.accountType = .expense

/-- What holds of charts obtained from histories of operations. -/
structure GoodChart (c : Chart) : Prop where
  path : ∀ p r, ref c p = some r → r.path = p
  income : ∀ p, IncomeAcc c p = (match ref c p with | some r => r.income | none => false)
  trading : ∀ p, TradingAcc c p = (match ref c p with | some r => r.trading | none => false)
  typ : ∀ p r, ref c p = some r → r.income = true → r.trading = true ∨ r.accountType = .revenue ∨ r.accountType = .expense

theorem goodChart_of_reachable {c : Chart} (h : ReachableChart c)
    (htype : ∀ ops, (runOps ops).map Account.accountType = defaultAccounts.map Account.accountType)
    (hsub : ∀ (ops : List Op) (i : Nat) (p : List Nat) (top a : Account), forestAt? (runOps ops) [i] = some top →
      forestAt? (runOps ops) (i :: p) = some a → a.accountType = top.accountType)
    (hpath : ∀ (ops : List Op), (∀ op ∈ ops, TopNonempty op) → ∀ (pos : List Nat) (a : Account),
      forestAt? (runOps ops) pos = some a → ∃ names, namesAlong (runOps ops) pos = some names ∧ a.path = joinSlash names) :
    GoodChart c := by
  obtain ⟨ops, hops, hc⟩ := h
  have spec := fun p => getRef_spec c.str p
  have key : ∀ p, (∃ b pos, accountAt c p = some b ∧ ref c p = some ⟨pos, b.path, b.accountType⟩ ∧
      forestAt? c.str.accounts pos = some b ∧ namesAlong c.str.accounts pos = some (segments p) ∧
      ∃ n, (segments p).head? = some n ∧ c.str.accounts.findIdx? (fun a => a.name = n) = pos.head? ∧
        pos.length = (segments p).length) ∨ (accountAt c p = none ∧ ref c p = none) := by
    intro p
    obtain ⟨s1, s2⟩ := spec p
    cases hw : walk c.str.accounts (segments p) with
    | none =>
      right
      refine ⟨hw, ?_⟩
      rcases s2 hw with h | h <;> simp [ref, h]
    | some b =>
      left
      obtain ⟨pos, h1, h2⟩ := s1 b hw
      exact ⟨b, pos, hw, by simp [ref, h1], h2⟩
  have hpathp : ∀ p r, ref c p = some r → r.path = p := by
    intro p r hr
    rcases key p with ⟨b, pos, _, h2, h3, h4, _⟩ | ⟨_, h2⟩
    · rw [h2] at hr; simp only [Option.some.injEq] at hr
      subst hr
      rw [hc] at h3 h4
      obtain ⟨ns, n1, n2⟩ := hpath ops hops pos b h3
      rw [n1] at h4; simp only [Option.some.injEq] at h4
      simp only
      rw [n2, h4, join_segments]
    · rw [h2] at hr; simp at hr
  have hTrad : ∀ b pos, forestAt? c.str.accounts pos = some b →
      (match pos with | 1 :: _ :: _ => true | _ => false) = true ∨ (match pos with | 2 :: _ :: _ => true | _ => false) = true →
      b.accountType = .revenue ∨ b.accountType = .expense := by
    intro b pos hb ht
    rw [hc] at hb
    have ht0 : ∀ (i : Nat) (top : Account), (runOps ops)[i]? = some top → some top.accountType = (defaultAccounts.map Account.accountType)[i]? := by
      intro i top h
      rw [← htype ops]; simp [h]
    rcases ht with ht | ht
    · split at ht
      · rename_i j rest
        have : ∃ top, (runOps ops)[1]? = some top := by
          simp only [forestAt?] at hb
          cases hh : (runOps ops)[1]? with
          | none => simp [hh] at hb
          | some t => exact ⟨t, rfl⟩
        obtain ⟨top, h1⟩ := this
        have e := ht0 1 top h1
        have := hsub ops 1 (j :: rest) top b (by simp [forestAt?, h1, Account.at?]) hb
        left; rw [this]
        have d : (defaultAccounts.map Account.accountType)[1]? = some .revenue := by decide
        rw [d] at e; simpa using e
      · simp at ht
    · split at ht
      · rename_i j rest
        have : ∃ top, (runOps ops)[2]? = some top := by
          simp only [forestAt?] at hb
          cases hh : (runOps ops)[2]? with
          | none => simp [hh] at hb
          | some t => exact ⟨t, rfl⟩
        obtain ⟨top, h1⟩ := this
        have e := ht0 2 top h1
        have := hsub ops 2 (j :: rest) top b (by simp [forestAt?, h1, Account.at?]) hb
        right; rw [this]
        have d : (defaultAccounts.map Account.accountType)[2]? = some .expense := by decide
        rw [d] at e; simpa using e
      · simp at ht
  refine ⟨hpathp, fun p => ?_, fun p => ?_, fun p r _ h => ?_⟩
  · rcases key p with ⟨b, pos, h1, h2, h3, _⟩ | ⟨h1, h2⟩
    · simp only [IncomeAcc, h1, h2]
      rw [Bool.eq_iff_iff]
      simp only [Ref.income, Ref.trading, Bool.or_eq_true, decide_eq_true_iff]
      constructor
      · rintro (h | h)
        · exact .inl (.inr h)
        · exact .inr h
      · rintro ((h | h) | h)
        · exact hTrad b pos h3 h
        · exact .inl h
        · exact .inr h
    · simp only [IncomeAcc, h1, h2]
  · rcases key p with ⟨b, pos, h1, h2, h3, _, n, n1, n2, n3⟩ | ⟨h1, h2⟩
    · simp only [TradingAcc, h1, h2, n1, n2]
      rw [Bool.eq_iff_iff]
      simp only [Ref.trading, Ref.inSales, Ref.inCos, Option.isSome_some, Bool.true_and, Bool.and_eq_true, Bool.or_eq_true,
        decide_eq_true_iff, ge_iff_le, ← n3]
      cases pos with
      | nil => simp
      | cons i pos =>
        cases pos with
        | nil => simp
        | cons j pos =>
          simp only [List.length_cons, List.head?_cons, Option.some.injEq]
          constructor
          · rintro ⟨_, h | h⟩
            · subst h; simp
            · subst h; simp
          · intro h
            refine ⟨by omega, ?_⟩
            rcases h with h | h <;> split at h <;> simp_all
    · simp [TradingAcc, h1, h2]
  · simp only [Ref.income, Bool.or_eq_true, decide_eq_true_iff] at h
    tauto

/-! ## The dicts -/

/-- total stored under a key -/
def dictGet (k : Ref) (d : Dict Ref) : ℚ := (d.map (fun e => if e.1 = k then e.2 else 0)).sum

theorem dictGet_add (k k' : Ref) (v : ℚ) (d : Dict Ref) :
    dictGet k (dictAdd k' v d) = dictGet k d + (if k' = k then v else 0) := by
  induction d with
  | nil => simp [dictAdd, dictGet]
  | cons e d ih =>
    obtain ⟨k2, w⟩ := e
    unfold dictAdd
    by_cases h : k2 = k'
    · subst h
      simp only [if_true, dictGet, List.map_cons, List.sum_cons]
      by_cases h2 : k2 = k <;> simp [h2]; ring
    · rw [if_neg h]
      simp only [dictGet, List.map_cons, List.sum_cons] at ih ⊢
      rw [ih]; ring

theorem keys_dictAdd (k : Ref) (v : ℚ) (d : Dict Ref) : ∀ e ∈ dictAdd k v d, e.1 = k ∨ ∃ e' ∈ d, e'.1 = e.1 := by
  induction d with
  | nil => simp [dictAdd]
  | cons x d ih =>
    obtain ⟨k2, w⟩ := x
    unfold dictAdd
    split
    · rename_i h
      intro e he
      rcases List.mem_cons.1 he with rfl | he
      · left; exact h
      · right; exact ⟨e, by simp [he], rfl⟩
    · intro e he
      rcases List.mem_cons.1 he with rfl | he
      · right; exact ⟨_, by simp, rfl⟩
      · rcases ih e he with h | ⟨e', h1, h2⟩
        · exact .inl h
        · exact .inr ⟨e', by simp [h1], h2⟩

/-- total of a dict -/
def dictSum (d : Dict Ref) : ℚ := (d.map Prod.snd).sum

theorem dictSum_add (k : Ref) (v : ℚ) (d : Dict Ref) : dictSum (dictAdd k v d) = dictSum d + v := by
  induction d with
  | nil => simp [dictAdd, dictSum]
  | cons x d ih =>
    obtain ⟨k2, w⟩ := x
    unfold dictAdd
    split
    · simp only [dictSum, List.map_cons, List.sum_cons]; ring
    · simp only [dictSum, List.map_cons, List.sum_cons] at ih ⊢; rw [ih]; ring

/-- contribution of a transaction to an account -/
def contrib (c : Chart) (r : Ref) (t : Tx) : ℚ :=
  (if ref c t.cr = some r then t.amount else 0) - (if ref c t.dt = some r then t.amount else 0)

/-- sign with which an account enters the second dict -/
def sgn (r : Ref) : ℚ := if r.accountType = .expense then -1 else 1

/-- signed sum of the second dict -/
def incSum (d : Dict Ref) : ℚ := (d.map (fun e => sgn e.1 * e.2)).sum

theorem incSum_add (k : Ref) (v : ℚ) (d : Dict Ref) : incSum (dictAdd k v d) = incSum d + sgn k * v := by
  induction d with
  | nil => simp [dictAdd, incSum]
  | cons x d ih =>
    obtain ⟨k2, w⟩ := x
    unfold dictAdd
    split
    · rename_i h; subst h; simp only [incSum, List.map_cons, List.sum_cons]; ring
    · simp only [incSum, List.map_cons, List.sum_cons] at ih ⊢; rw [ih]; ring

/-- the optional account is an income account -/
def optInc : Option Ref → Bool
  | some r => r.income
  | none => false

/-- net income effect of a transaction -/
def effect (c : Chart) (t : Tx) : ℚ :=
  (if optInc (ref c t.cr) then t.amount else 0) - (if optInc (ref c t.dt) then t.amount else 0)

theorem classify_cases {c : Chart} {w w' : WriteOff} {t : Tx} (h : classify c w t = .ok w')
    (hg : ¬ (optInc (ref c t.cr) = true ∧ optInc (ref c t.dt) = true)) :
    (∃ k, ref c t.cr = some k ∧ k.trading = true ∧ w' = { w with gross := dictAdd k t.amount w.gross } ∧ optInc (ref c t.dt) = false) ∨
    (∃ k, ref c t.dt = some k ∧ k.trading = true ∧ w' = { w with gross := dictAdd k (-t.amount) w.gross } ∧ optInc (ref c t.cr) = false) ∨
    (∃ k, ref c t.cr = some k ∧ k.trading = false ∧ k.income = true ∧ w' = { w with inc := dictAdd k (sgn k * t.amount) w.inc } ∧
      optInc (ref c t.dt) = false) ∨
    (∃ k, ref c t.dt = some k ∧ k.trading = false ∧ k.income = true ∧ w' = { w with inc := dictAdd k (-(sgn k * t.amount)) w.inc } ∧
      optInc (ref c t.cr) = false) ∨
    (w' = w ∧ optInc (ref c t.cr) = false ∧ optInc (ref c t.dt) = false) := by
  unfold classify at h
  cases hcr : getRef c.str t.cr with
  | error e => rw [hcr] at h; cases h
  | ok cr =>
    cases hdt : getRef c.str t.dt with
    | error e => rw [hcr, hdt] at h; cases h
    | ok dt =>
      have r1 : ref c t.cr = cr := by simp [ref, hcr]
      have r2 : ref c t.dt = dt := by simp [ref, hdt]
      rw [r1, r2] at hg ⊢
      rw [hcr, hdt] at h
      simp only [bind, Except.bind, pure, Except.pure, throw, throwThe, MonadExceptOf.throw] at h
      have hin : ∀ r : Ref, (r.inSales = true → r.trading = true ∧ r.income = true) ∧
          (r.inCos = true → r.trading = true ∧ r.income = true) ∧
          (r.accountType = .revenue → r.income = true ∧ sgn r = 1) ∧ (r.accountType = .expense → r.income = true ∧ sgn r = -1) ∧
          (r.inSales = false → r.inCos = false → r.trading = false) ∧
          (r.inSales = false → r.inCos = false → r.accountType ≠ .revenue → r.accountType ≠ .expense → r.income = false) := by
        intro r
        refine ⟨fun h => by simp [Ref.trading, Ref.income, h], fun h => by simp [Ref.trading, Ref.income, h],
          fun h => by simp [Ref.income, sgn, h], fun h => by simp [Ref.income, sgn, h], fun h1 h2 => by simp [Ref.trading, h1, h2],
          fun h1 h2 h3 h4 => by simp [Ref.trading, Ref.income, h1, h2, h3, h4]⟩
      cases cr with
      | none =>
        cases dt with
        | none => simp at h
        | some d =>
          obtain ⟨d1, d2, _⟩ := hin d
          simp only at h
          split at h
          · rename_i hs
            simp only [Except.ok.injEq] at h
            exact .inr (.inl ⟨d, rfl, (d1 hs).1, h.symm, rfl⟩)
          · split at h
            · rename_i hs
              simp only [Except.ok.injEq] at h
              exact .inr (.inl ⟨d, rfl, (d2 hs).1, h.symm, rfl⟩)
            · cases h
      | some k =>
        obtain ⟨k1, k2, k3, k4, k5, k6⟩ := hin k
        cases dt with
        | none =>
          simp only at h
          split at h
          · rename_i hs
            simp only [Except.ok.injEq] at h
            exact .inl ⟨k, rfl, (k1 hs).1, h.symm, rfl⟩
          · rename_i hs
            split at h
            · rename_i hs2
              simp only [Except.ok.injEq] at h
              exact .inl ⟨k, rfl, (k2 hs2).1, h.symm, rfl⟩
            · rename_i hs2
              split at h
              · rename_i hs3
                simp only [Except.ok.injEq] at h
                refine .inr (.inr (.inl ⟨k, rfl, k5 (by simpa using hs) (by simpa using hs2), (k3 hs3).1, ?_, rfl⟩))
                rw [(k3 hs3).2, one_mul]; exact h.symm
              · cases h
        | some d =>
          obtain ⟨d1, d2, d3, d4, d5, d6⟩ := hin d
          have no : k.income = true → optInc (some d) = false := by
            intro hk
            cases hd : d.income with
            | false => exact hd
            | true => exact absurd ⟨hk, hd⟩ hg
          have no' : d.income = true → optInc (some k) = false := by
            intro hk
            cases hd : k.income with
            | false => exact hd
            | true => exact absurd ⟨hd, hk⟩ hg
          simp only at h
          split at h
          · rename_i hs
            simp only [Except.ok.injEq] at h
            exact .inl ⟨k, rfl, (k1 hs).1, h.symm, no (k1 hs).2⟩
          · rename_i hs
            split at h
            · rename_i hs2
              simp only [Except.ok.injEq] at h
              exact .inr (.inl ⟨d, rfl, (d1 hs2).1, h.symm, no' (d1 hs2).2⟩)
            · rename_i hs2
              split at h
              · rename_i hs3
                simp only [Except.ok.injEq] at h
                exact .inl ⟨k, rfl, (k2 hs3).1, h.symm, no (k2 hs3).2⟩
              · rename_i hs3
                split at h
                · rename_i hs4
                  simp only [Except.ok.injEq] at h
                  exact .inr (.inl ⟨d, rfl, (d2 hs4).1, h.symm, no' (d2 hs4).2⟩)
                · rename_i hs4
                  have kt := k5 (by simpa using hs) (by simpa using hs3)
                  have dt := d5 (by simpa using hs2) (by simpa using hs4)
                  split at h
                  · rename_i hs5
                    simp only [Except.ok.injEq] at h
                    refine .inr (.inr (.inl ⟨k, rfl, kt, (k3 hs5).1, ?_, no (k3 hs5).1⟩))
                    rw [(k3 hs5).2, one_mul]; exact h.symm
                  · rename_i hs5
                    split at h
                    · rename_i hs6
                      split at h
                      · simp only [Except.ok.injEq] at h
                        refine .inr (.inr (.inr (.inl ⟨d, rfl, dt, (d3 hs6).1, ?_, no' (d3 hs6).1⟩)))
                        rw [(d3 hs6).2, one_mul]; exact h.symm
                      · cases h
                    · rename_i hs6
                      split at h
                      · rename_i hs7
                        simp only [Except.ok.injEq] at h
                        refine .inr (.inr (.inl ⟨k, rfl, kt, (k4 hs7).1, ?_, no (k4 hs7).1⟩))
                        rw [(k4 hs7).2, neg_one_mul]; exact h.symm
                      · rename_i hs7
                        split at h
                        · rename_i hs8
                          simp only [Except.ok.injEq] at h
                          refine .inr (.inr (.inr (.inl ⟨d, rfl, dt, (d4 hs8).1, ?_, no' (d4 hs8).1⟩)))
                          rw [(d4 hs8).2, neg_one_mul, neg_neg]; exact h.symm
                        · rename_i hs8
                          simp only [Except.ok.injEq] at h
                          exact .inr (.inr (.inr (.inr ⟨h.symm, k6 (by simpa using hs) (by simpa using hs3) hs5 hs7,
                            d6 (by simpa using hs2) (by simpa using hs4) hs6 hs8⟩)))

theorem trading_income {r : Ref} (h : r.trading = true) : r.income = true := by simp [Ref.income, h]

theorem contrib_of_not {c : Chart} {r : Ref} {t : Tx} (hr : r.income = true) (h1 : optInc (ref c t.cr) = false) :
    contrib c r t = - (if ref c t.dt = some r then t.amount else 0) := by
  have : ref c t.cr ≠ some r := by intro h; rw [h] at h1; simp [optInc, hr] at h1
  simp [contrib, this]

theorem contrib_of_not' {c : Chart} {r : Ref} {t : Tx} (hr : r.income = true) (h1 : optInc (ref c t.dt) = false) :
    contrib c r t = (if ref c t.cr = some r then t.amount else 0) := by
  have : ref c t.dt ≠ some r := by intro h; rw [h] at h1; simp [optInc, hr] at h1
  simp [contrib, this]

/-- what one transaction does to the dicts -/
theorem classify_spec {c : Chart} {w w' : WriteOff} {t : Tx} (h : classify c w t = .ok w')
    (hg : ¬ (optInc (ref c t.cr) = true ∧ optInc (ref c t.dt) = true)) :
    (∀ r, dictGet r w'.gross = dictGet r w.gross + if r.trading then contrib c r t else 0) ∧
    (∀ r, dictGet r w'.inc = dictGet r w.inc + if r.income && !r.trading then sgn r * contrib c r t else 0) ∧
    (∀ e ∈ w'.gross, (∃ e' ∈ w.gross, e'.1 = e.1) ∨ (e.1.trading = true ∧ (ref c t.cr = some e.1 ∨ ref c t.dt = some e.1))) ∧
    (∀ e ∈ w'.inc, (∃ e' ∈ w.inc, e'.1 = e.1) ∨
      ((e.1.income && !e.1.trading) = true ∧ (ref c t.cr = some e.1 ∨ ref c t.dt = some e.1))) ∧
    dictSum w'.gross + incSum w'.inc = dictSum w.gross + incSum w.inc + effect c t := by
  have hsg : ∀ k, sgn k * sgn k = 1 := by intro k; unfold sgn; split <;> norm_num
  rcases classify_cases h hg with ⟨k, h1, h2, rfl, h4⟩ | ⟨k, h1, h2, rfl, h4⟩ | ⟨k, h1, h2, h3, rfl, h4⟩ | ⟨k, h1, h2, h3, rfl, h4⟩ | ⟨rfl, h1, h2⟩
  · refine ⟨fun r => ?_, fun r => ?_, ?_, fun e he => .inl ⟨e, he, rfl⟩, ?_⟩
    · rw [dictGet_add]; congr 1
      by_cases hr : r.trading = true
      · rw [if_pos hr, contrib_of_not' (trading_income hr) h4, h1]
        simp only [Option.some.injEq]
      · rw [if_neg hr, if_neg]; rintro rfl; exact hr h2
    · by_cases hr : (r.income && !r.trading) = true
      · simp only [Bool.and_eq_true, Bool.not_eq_true'] at hr
        have : ref c t.cr ≠ some r := by rw [h1]; intro e; simp at e; subst e; rw [h2] at hr; simp at hr
        rw [contrib_of_not' hr.1 h4, if_neg this]; simp
      · simp [hr]
    · intro e he
      rcases keys_dictAdd _ _ _ e he with hh | hh
      · right; rw [hh]; exact ⟨h2, .inl h1⟩
      · left; exact hh
    · have e : optInc (ref c t.cr) = true := by rw [h1]; exact trading_income h2
      simp only [dictSum_add, effect, h4, e, if_true, Bool.false_eq_true, if_false]; ring
  · refine ⟨fun r => ?_, fun r => ?_, ?_, fun e he => .inl ⟨e, he, rfl⟩, ?_⟩
    · rw [dictGet_add]; congr 1
      by_cases hr : r.trading = true
      · rw [if_pos hr, contrib_of_not (trading_income hr) h4, h1]
        simp only [Option.some.injEq]; split <;> simp
      · rw [if_neg hr, if_neg]; rintro rfl; exact hr h2
    · by_cases hr : (r.income && !r.trading) = true
      · simp only [Bool.and_eq_true, Bool.not_eq_true'] at hr
        have : ref c t.dt ≠ some r := by rw [h1]; intro e; simp at e; subst e; rw [h2] at hr; simp at hr
        rw [contrib_of_not hr.1 h4, if_neg this]; simp
      · simp [hr]
    · intro e he
      rcases keys_dictAdd _ _ _ e he with hh | hh
      · right; rw [hh]; exact ⟨h2, .inr h1⟩
      · left; exact hh
    · have e : optInc (ref c t.dt) = true := by rw [h1]; exact trading_income h2
      simp only [dictSum_add, effect, h4, e, if_true, Bool.false_eq_true, if_false]; ring
  · refine ⟨fun r => ?_, fun r => ?_, fun e he => .inl ⟨e, he, rfl⟩, ?_, ?_⟩
    · by_cases hr : r.trading = true
      · have : ref c t.cr ≠ some r := by rw [h1]; intro e; simp at e; subst e; rw [h2] at hr; simp at hr
        rw [if_pos hr, contrib_of_not' (trading_income hr) h4, if_neg this]; simp
      · simp [hr]
    · rw [dictGet_add]; congr 1
      by_cases hr : (r.income && !r.trading) = true
      · have hr' := hr
        simp only [Bool.and_eq_true, Bool.not_eq_true'] at hr'
        rw [if_pos hr, contrib_of_not' hr'.1 h4, h1]
        simp only [Option.some.injEq]
        by_cases hk : k = r
        · subst hk; simp
        · simp [hk]
      · rw [if_neg hr, if_neg]; rintro rfl; simp [h2, h3] at hr
    · intro e he
      rcases keys_dictAdd _ _ _ e he with hh | hh
      · right; rw [hh]; exact ⟨by simp [h2, h3], .inl h1⟩
      · left; exact hh
    · have e : optInc (ref c t.cr) = true := by rw [h1]; exact h3
      simp only [incSum_add, effect, h4, e, if_true, Bool.false_eq_true, if_false]
      have := hsg k
      linear_combination t.amount * this
  · refine ⟨fun r => ?_, fun r => ?_, fun e he => .inl ⟨e, he, rfl⟩, ?_, ?_⟩
    · by_cases hr : r.trading = true
      · have : ref c t.dt ≠ some r := by rw [h1]; intro e; simp at e; subst e; rw [h2] at hr; simp at hr
        rw [if_pos hr, contrib_of_not (trading_income hr) h4, if_neg this]; simp
      · simp [hr]
    · rw [dictGet_add]; congr 1
      by_cases hr : (r.income && !r.trading) = true
      · have hr' := hr
        simp only [Bool.and_eq_true, Bool.not_eq_true'] at hr'
        rw [if_pos hr, contrib_of_not hr'.1 h4, h1]
        simp only [Option.some.injEq]
        by_cases hk : k = r
        · subst hk; simp
        · simp [hk]
      · rw [if_neg hr, if_neg]; rintro rfl; simp [h2, h3] at hr
    · intro e he
      rcases keys_dictAdd _ _ _ e he with hh | hh
      · right; rw [hh]; exact ⟨by simp [h2, h3], .inr h1⟩
      · left; exact hh
    · have e : optInc (ref c t.dt) = true := by rw [h1]; exact h3
      simp only [incSum_add, effect, h4, e, if_true, Bool.false_eq_true, if_false]
      have := hsg k
      linear_combination (-t.amount) * this
  · have hz : ∀ r : Ref, r.income = true → contrib c r t = 0 := by
      intro r hr
      have : ref c t.dt ≠ some r := by intro e; rw [e] at h2; simp [optInc, hr] at h2
      rw [contrib_of_not hr h1, if_neg this]; simp
    refine ⟨fun r => ?_, fun r => ?_, fun e he => .inl ⟨e, he, rfl⟩, fun e he => .inl ⟨e, he, rfl⟩, ?_⟩
    · by_cases hr : r.trading = true
      · simp [hz r (trading_income hr)]
      · simp [hr]
    · by_cases hr : r.income = true
      · simp [hz r hr]
      · simp [hr]
    · simp [effect, h1, h2]

/-- what all transactions of a year do to the dicts -/
theorem classifyAll_spec {c : Chart} : ∀ (txs : List Tx) {w w' : WriteOff}, classifyAll c w txs = .ok w' →
    (∀ t ∈ txs, ¬ (optInc (ref c t.cr) = true ∧ optInc (ref c t.dt) = true)) →
    (∀ r, dictGet r w'.gross = dictGet r w.gross + if r.trading then (txs.map (contrib c r)).sum else 0) ∧
    (∀ r, dictGet r w'.inc = dictGet r w.inc + if r.income && !r.trading then sgn r * (txs.map (contrib c r)).sum else 0) ∧
    (∀ e ∈ w'.gross, (∃ e' ∈ w.gross, e'.1 = e.1) ∨ (e.1.trading = true ∧ ∃ p, ref c p = some e.1)) ∧
    (∀ e ∈ w'.inc, (∃ e' ∈ w.inc, e'.1 = e.1) ∨ ((e.1.income && !e.1.trading) = true ∧ ∃ p, ref c p = some e.1)) ∧
    dictSum w'.gross + incSum w'.inc = dictSum w.gross + incSum w.inc + (txs.map (effect c)).sum := by
  intro txs
  induction txs with
  | nil =>
    intro w w' h _
    simp only [classifyAll, Except.ok.injEq] at h
    subst h
    refine ⟨by simp, by simp, fun e he => .inl ⟨e, he, rfl⟩, fun e he => .inl ⟨e, he, rfl⟩, by simp⟩
  | cons t txs ih =>
    intro w w' h hg
    simp only [classifyAll] at h
    split at h
    · cases h
    · rename_i w1 h1
      obtain ⟨a1, a2, a3, a4, a5⟩ := classify_spec h1 (hg t (by simp))
      obtain ⟨b1, b2, b3, b4, b5⟩ := ih h (fun t ht => hg t (by simp [ht]))
      refine ⟨fun r => ?_, fun r => ?_, fun e he => ?_, fun e he => ?_, ?_⟩
      · rw [b1, a1, List.map_cons, List.sum_cons]; split <;> ring
      · rw [b2, a2, List.map_cons, List.sum_cons]; split <;> ring
      · rcases b3 e he with ⟨e', h3, h4⟩ | h3
        · rcases a3 e' h3 with ⟨e2, h5, h6⟩ | ⟨h5, h6⟩
          · exact .inl ⟨e2, h5, h6.trans h4⟩
          · right; rw [h4] at h5 h6; refine ⟨h5, ?_⟩
            rcases h6 with h6 | h6 <;> exact ⟨_, h6⟩
        · exact .inr h3
      · rcases b4 e he with ⟨e', h3, h4⟩ | h3
        · rcases a4 e' h3 with ⟨e2, h5, h6⟩ | ⟨h5, h6⟩
          · exact .inl ⟨e2, h5, h6.trans h4⟩
          · right; rw [h4] at h5 h6; refine ⟨h5, ?_⟩
            rcases h6 with h6 | h6 <;> exact ⟨_, h6⟩
        · exact .inr h3
      · rw [b5, a5, List.map_cons, List.sum_cons]; ring

/-! ## Effect of the closing transactions -/

theorem netCredit_append (p : Str) (a b : List Tx) : netCredit p (a ++ b) = netCredit p a + netCredit p b := by
  simp [netCredit]

theorem netCredit_closing (p src : Str) (date : Int) (s dt cr : Str) (v : ℚ) :
    netCredit p [closing src date s dt cr v] = (if cr = p then v else 0) - (if dt = p then v else 0) := by
  simp [netCredit, closing]

/-- total stored under keys with a path -/
def pathSum (p : Str) (f : Ref → ℚ) (d : Dict Ref) : ℚ := (d.map (fun e => if e.1.path = p then f e.1 * e.2 else 0)).sum

theorem netCredit_gross (c : Chart) (src : Str) (date : Int) (p : Str) (hp : p ≠ c.grossProf) (d : Dict Ref) :
    netCredit p (grossClosings c src date d) = pathSum p (fun _ => 1) d := by
  induction d with
  | nil => rfl
  | cons e d ih =>
    obtain ⟨k, v⟩ := e
    simp only [grossClosings, netCredit_append, ih, pathSum, List.map_cons, List.sum_cons]
    congr 1
    have hp' : c.grossProf ≠ p := hp.symm
    rcases lt_trichotomy v 0 with h | h | h
    · rw [if_neg (by linarith), if_pos h, netCredit_closing, abs_of_neg h]; simp [hp']
      split <;> ring
    · subst h; simp [netCredit]
    · rw [if_pos h, netCredit_closing, abs_of_pos h]; simp [hp']

theorem netCredit_inc (c : Chart) (src : Str) (date : Int) (p : Str) (hp : p ≠ c.incSum) (d : Dict Ref) :
    netCredit p (incClosings c src date d) = pathSum p (fun r => - sgn r) d := by
  induction d with
  | nil => rfl
  | cons e d ih =>
    obtain ⟨k, v⟩ := e
    simp only [incClosings, netCredit_append, ih, pathSum, List.map_cons, List.sum_cons]
    congr 1
    have hp' : c.incSum ≠ p := hp.symm
    unfold sgn
    rcases lt_trichotomy v 0 with h | h | h
    · rw [if_neg (by linarith), if_pos h]
      by_cases hk : k.accountType = .expense
      · rw [if_pos hk, if_pos hk, netCredit_closing, abs_of_neg h]; simp [hp']; split <;> ring
      · rw [if_neg hk, if_neg hk, netCredit_closing, abs_of_neg h]; simp [hp']
    · subst h; simp [netCredit]
    · rw [if_pos h]
      by_cases hk : k.accountType = .expense
      · rw [if_pos hk, if_pos hk, netCredit_closing, abs_of_pos h]; simp [hp']
      · rw [if_neg hk, if_neg hk, netCredit_closing, abs_of_pos h]; simp [hp']; split <;> ring

theorem grossTotal_eq (d : Dict Ref) : grossTotal d = dictSum d := by
  have : ∀ s, d.foldl (fun s e => s + e.2) s = s + dictSum d := by
    induction d with
    | nil => intro s; simp [dictSum]
    | cons e d ih => intro s; simp only [List.foldl_cons, ih, dictSum, List.map_cons, List.sum_cons]; ring
  rw [grossTotal, this, zero_add]

theorem incTotal_eq (g : ℚ) (d : Dict Ref) : incTotal g d = g + incSum d := by
  unfold incTotal
  induction d generalizing g with
  | nil => simp [incSum]
  | cons e d ih =>
    simp only [List.foldl_cons, ih, incSum, List.map_cons, List.sum_cons]
    rw [← add_assoc]; congr 1
    unfold sgn
    rcases lt_trichotomy e.2 0 with h | h | h
    · rw [if_pos (.inr h)]; split <;> ring
    · rw [h]; simp
    · rw [if_pos (.inl h)]; split <;> ring

theorem netCredit_settle (c : Chart) (src : Str) (date : Int) (g : ℚ) (p : Str) (h1 : p ≠ c.grossProf) (h2 : p ≠ c.incSum) :
    netCredit p (grossSettle c src date g) = 0 := by
  unfold grossSettle
  split
  · rw [netCredit_closing]; simp [h1.symm, h2.symm]
  · split
    · rw [netCredit_closing]; simp [h1.symm, h2.symm]
    · rfl

theorem netCredit_retained (c : Chart) (src : Str) (date : Int) (g : ℚ) (p : Str) (h2 : p ≠ c.incSum) :
    netCredit p (retainedClosings c src date g) = if p = c.retEarn then |g| else 0 := by
  unfold retainedClosings
  rcases lt_trichotomy g 0 with h | h | h
  · rw [if_neg (by linarith), if_pos h, netCredit_closing, abs_of_neg h]
    simp only [h2.symm, if_false]
    by_cases hp : p = c.retEarn
    · subst hp; simp
    · simp [hp, Ne.symm hp]
  · subst h; simp [netCredit]
  · rw [if_pos h, netCredit_closing, abs_of_pos h]
    simp only [h2.symm, if_false]
    by_cases hp : p = c.retEarn
    · subst hp; simp
    · simp [hp, Ne.symm hp]

/-- Sums over keys with a path are sums over the one key that can have it. -/
theorem pathSum_eq {c : Chart} (gc : GoodChart c) {p : Str} {r : Ref} (hr : ref c p = some r) (f : Ref → ℚ) (d : Dict Ref)
    (hk : ∀ e ∈ d, ∃ q, ref c q = some e.1) : pathSum p f d = f r * dictGet r d := by
  induction d with
  | nil => simp [pathSum, dictGet]
  | cons e d ih =>
    have ih := ih (fun e he => hk e (by simp [he]))
    simp only [pathSum, dictGet, List.map_cons, List.sum_cons] at ih ⊢
    rw [ih, mul_add]; congr 1
    obtain ⟨q, hq⟩ := hk e (by simp)
    by_cases h : e.1 = r
    · simp [h, gc.path p r hr]
    · have : e.1.path ≠ p := by
        intro hp
        rw [gc.path q _ hq] at hp
        subst hp
        rw [hr] at hq; simp at hq; exact h hq.symm
      simp [h, this]

theorem pathSum_zero {c : Chart} (gc : GoodChart c) {p : Str} (f : Ref → ℚ) (d : Dict Ref) (hp : ∀ r, ref c p = some r → ∀ e ∈ d, e.1 ≠ r)
    (hk : ∀ e ∈ d, ∃ q, ref c q = some e.1) : pathSum p f d = 0 := by
  apply List.sum_eq_zero
  intro x hx
  simp only [List.mem_map] at hx
  obtain ⟨e, he, rfl⟩ := hx
  obtain ⟨q, hq⟩ := hk e he
  rw [if_neg]
  intro h
  have := gc.path q _ hq
  rw [h] at this; subst this
  exact hp _ hq e he rfl

theorem contrib_netCredit {c : Chart} (gc : GoodChart c) {p : Str} {r : Ref} (hr : ref c p = some r) (txs : List Tx) :
    (txs.map (contrib c r)).sum = netCredit p txs := by
  unfold netCredit
  congr 1
  apply List.map_congr_left
  intro t _
  have h : ∀ q, ref c q = some r ↔ q = p := by
    intro q
    constructor
    · intro h; rw [← gc.path q r h, gc.path p r hr]
    · rintro rfl; exact hr
  simp only [contrib, h]

end Auxi.Business
