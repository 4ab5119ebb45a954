import Verif.Spec.Ledger

namespace Auxi.Ledger
open Spec

/-! ## Path invariant -/

inductive WFc : Str → Account → Prop
  | mk {p : Str} {a : Account} (hp : p ≠ []) (h1 : a.parentPath = p) (h2 : a.path = p ++ '/' :: a.name)
      (h3 : ∀ c ∈ a.accounts, WFc a.path c) : WFc p a

def WFtop (a : Account) : Prop :=
  a.parentPath = [] ∧ a.path = a.name ∧ a.name ≠ [] ∧ ∀ c ∈ a.accounts, WFc a.path c

mutual
theorem setParentPath_wf (p : Str) (hp : p ≠ []) : ∀ a : Account, WFc p (a.setParentPath p)
  | ⟨n, d, num, t, pp, pa, cs⟩ => by
    refine WFc.mk hp ?_ ?_ ?_
    · simp [Account.setParentPath]
    · simp [Account.setParentPath]
    · simp only [Account.setParentPath]
      exact updateChildrens_wf _ (by simp) cs
theorem updateChildrens_wf (p : Str) (hp : p ≠ []) : ∀ l : List Account, ∀ c ∈ updateChildrens p l, WFc p c
  | [] => by simp [updateChildrens]
  | c :: cs => by
    intro x hx
    simp only [updateChildrens, List.mem_cons] at hx
    rcases hx with rfl | hx
    · exact setParentPath_wf p hp c
    · exact updateChildrens_wf p hp cs x hx
end

theorem mem_modify {α} {l : List α} {i : Nat} {f : α → α} {x : α} (h : x ∈ l.modify i f) :
    x ∈ l ∨ ∃ y ∈ l, x = f y := by
  induction l generalizing i with
  | nil => cases i <;> simp [List.modify] at h
  | cons a l ih =>
    cases i with
    | zero => simp at h; rcases h with rfl | h <;> simp_all
    | succ i =>
      simp at h
      rcases h with rfl | h
      · simp
      · rcases ih h with h | ⟨y, hy, rfl⟩
        · simp [h]
        · right; exact ⟨y, by simp [hy], rfl⟩

theorem lastIdx_lt {n : Str} {l : List Account} {i : Nat} (h : lastIdx n l = some i) : i < l.length := by
  induction l generalizing i with
  | nil => simp [lastIdx] at h
  | cons c cs ih =>
    simp only [lastIdx] at h
    split at h
    · rename_i j hj; simp at h; have := ih hj; simp; omega
    · split at h <;> simp at h; simp; omega

theorem removeNamed_sublist (n : Str) (l : List Account) : (removeNamed n l).Sublist l := by
  unfold removeNamed; split
  · exact List.eraseIdx_sublist ..
  · exact List.Sublist.refl _

theorem WFc_path_ne {p : Str} {a : Account} (h : WFc p a) : a.path ≠ [] := by
  cases h with | mk hp h1 h2 h3 => rw [h2]; simp

theorem create_children {n num d} {a : Account} (hp : a.path ≠ []) (h : ∀ c ∈ a.accounts, WFc a.path c) :
    ∀ c ∈ (a.createAccount n num d).accounts, WFc a.path c := by
  intro c hc
  simp only [Account.createAccount, List.mem_append, List.mem_singleton] at hc
  rcases hc with hc | rfl
  · exact h c hc
  · exact setParentPath_wf _ hp _

/-- A child-level operation preserves `WFc` of the node it is applied to and keeps nothing else special. -/
theorem WFc_op_create {p n num d} {a : Account} (h : WFc p a) : WFc p (a.createAccount n num d) := by
  have hne := WFc_path_ne h
  cases h with | mk hp h1 h2 h3 => exact WFc.mk hp h1 h2 (create_children hne h3)

theorem WFc_op_remove {p n} {a : Account} (h : WFc p a) : WFc p (a.removeAccount n) := by
  cases h with | mk hp h1 h2 h3 =>
  exact WFc.mk hp h1 h2 (fun c hc => h3 c ((removeNamed_sublist n _).subset hc))

theorem WFc_op_rename {p n} {a : Account} (h : WFc p a) : WFc p (a.rename n) := by
  cases h with | mk hp h1 h2 h3 =>
  refine WFc.mk hp h1 ?_ ?_
  · simp [Account.rename, h1, hp]
  · intro c hc
    exact updateChildrens_wf _ (by simp [Account.rename, h1, hp]) _ c hc

theorem WFc_modAt {f : Account → Account} (hf : ∀ p a, WFc p a → WFc p (f a)) :
    ∀ (pos : List Nat) (p : Str) (a : Account), WFc p a → WFc p (a.modAt f pos)
  | [], p, a, h => hf p a h
  | i :: pos, p, a, h => by
    cases h with | mk hp h1 h2 h3 =>
    refine WFc.mk hp h1 h2 ?_
    intro c hc
    rcases mem_modify hc with hc | ⟨y, hy, rfl⟩
    · exact h3 c hc
    · exact WFc_modAt hf pos _ y (h3 y hy)

theorem WFtop_modAt {f : Account → Account} (hf : ∀ p a, WFc p a → WFc p (f a)) (pos : List Nat)
    (hft : pos = [] → ∀ a, WFtop a → WFtop (f a)) (a : Account) (h : WFtop a) : WFtop (a.modAt f pos) := by
  cases pos with
  | nil => exact hft rfl a h
  | cons i pos =>
    obtain ⟨h1, h2, h3, h4⟩ := h
    refine ⟨h1, h2, h3, ?_⟩
    intro c hc
    rcases mem_modify hc with hc | ⟨y, hy, rfl⟩
    · exact h4 c hc
    · exact WFc_modAt hf pos _ y (h4 y hy)

theorem WF_forestMod {f : Account → Account} (hf : ∀ p a, WFc p a → WFc p (f a)) (pos : List Nat)
    (hft : ∀ i, pos = [i] → ∀ a, WFtop a → WFtop (f a)) (l : List Account) (h : ∀ a ∈ l, WFtop a) :
    ∀ a ∈ forestMod f l pos, WFtop a := by
  cases pos with
  | nil => exact h
  | cons i pos =>
    intro a ha
    rcases mem_modify ha with ha | ⟨y, hy, rfl⟩
    · exact h a ha
    · exact WFtop_modAt hf pos (fun e => hft i (by rw [e])) y (h y hy)

theorem WF_op (l : List Account) (h : ∀ a ∈ l, WFtop a) (op : Op) (hop : TopNonempty op) :
    ∀ a ∈ op.apply l, WFtop a := by
  cases op with
  | create pos n num d =>
    refine WF_forestMod (fun _ _ => WFc_op_create) pos ?_ l h
    rintro i - a ⟨h1, h2, h3, h4⟩
    exact ⟨h1, h2, h3, create_children (by rw [h2]; exact h3) h4⟩
  | remove pos n =>
    refine WF_forestMod (fun _ _ => WFc_op_remove) pos ?_ l h
    rintro i - a ⟨h1, h2, h3, h4⟩
    exact ⟨h1, h2, h3, fun c hc => h4 c ((removeNamed_sublist n _).subset hc)⟩
  | rename pos n =>
    refine WF_forestMod (fun _ _ => WFc_op_rename) pos ?_ l h
    rintro i rfl a ⟨h1, h2, h3, h4⟩
    have hn : n ≠ [] := hop
    refine ⟨h1, by simp [Account.rename, h1], hn, ?_⟩
    intro c hc
    exact updateChildrens_wf _ (by simp [Account.rename, h1, hn]) _ c hc

theorem WFtop_new {n num t} (h : n ≠ []) : WFtop (Account.new n none num t) :=
  ⟨rfl, rfl, h, by simp [Account.new]⟩

theorem WFtop_create {a : Account} {n num d} (h : WFtop a) : WFtop (a.createAccount n num d) := by
  obtain ⟨h1, h2, h3, h4⟩ := h
  exact ⟨h1, h2, h3, create_children (by rw [h2]; exact h3) h4⟩

theorem WF_default : ∀ a ∈ defaultAccounts, WFtop a := by
  simp only [defaultAccounts, List.forall_mem_cons, ca]
  refine ⟨WFtop_create (WFtop_create (WFtop_new (by decide))), WFtop_new (by decide), WFtop_new (by decide), WFtop_new (by decide), WFtop_new (by decide), WFtop_create (WFtop_new (by decide)),
    WFtop_new (by decide), WFtop_new (by decide), WFtop_create (WFtop_new (by decide)), WFtop_new (by decide), WFtop_new (by decide), WFtop_new (by decide), WFtop_new (by decide),
    WFtop_new (by decide), WFtop_new (by decide), WFtop_new (by decide), WFtop_new (by decide), WFtop_create (WFtop_new (by decide)), WFtop_new (by decide), WFtop_new (by decide), WFtop_new (by decide), WFtop_new (by decide), ?_⟩
  simp

theorem WF_ops (ops : List Op) : ∀ (l : List Account), (∀ a ∈ l, WFtop a) → (∀ op ∈ ops, TopNonempty op) →
    ∀ a ∈ ops.foldl Op.apply l, WFtop a := by
  induction ops with
  | nil => intro l h _; exact h
  | cons op ops ih =>
    intro l h hops
    exact ih _ (WF_op l h op (hops op (by simp))) (fun o ho => hops o (by simp [ho]))

theorem WFc_at (pos : List Nat) : ∀ (p : Str) (a : Account), WFc p a → ∀ b names, a.at? pos = some b →
    namesAlong a.accounts pos = some names → b.path = p ++ '/' :: joinSlash (a.name :: names) := by
  induction pos with
  | nil =>
    intro p a h b names hb hn
    simp [Account.at?] at hb; simp [namesAlong] at hn; subst hb hn
    cases h with | mk hp h1 h2 h3 => simpa [joinSlash] using h2
  | cons i pos ih =>
    intro p a h b names hb hn
    simp only [Account.at?] at hb
    simp only [namesAlong] at hn
    cases hc : a.accounts[i]? with
    | none => simp [hc] at hb
    | some c =>
      simp only [hc] at hb hn
      cases h with | mk hp h1 h2 h3 =>
      have hmem : c ∈ a.accounts := List.mem_of_getElem? hc
      cases hn' : namesAlong c.accounts pos with
      | none => simp [hn'] at hn
      | some ns =>
        simp [hn'] at hn; subst hn
        rw [ih _ c (h3 c hmem) b ns hb hn', h2]
        simp [joinSlash]

theorem WF_forest_at (l : List Account) (h : ∀ a ∈ l, WFtop a) (pos : List Nat) (b : Account) (names : List Str)
    (hb : forestAt? l pos = some b) (hn : namesAlong l pos = some names) : b.path = joinSlash names := by
  cases pos with
  | nil => simp [forestAt?] at hb
  | cons i pos =>
    simp only [forestAt?] at hb
    simp only [namesAlong] at hn
    cases hc : l[i]? with
    | none => simp [hc] at hb
    | some c =>
      simp only [hc] at hb hn
      have hmem : c ∈ l := List.mem_of_getElem? hc
      obtain ⟨h1, h2, h3, h4⟩ := h c hmem
      cases hn' : namesAlong c.accounts pos with
      | none => simp [hn'] at hn
      | some ns =>
        simp [hn'] at hn; subst hn
        cases pos with
        | nil =>
          simp [Account.at?] at hb; simp [namesAlong] at hn'; subst hb hn'
          simpa [joinSlash] using h2
        | cons j pos =>
          simp only [Account.at?] at hb
          simp only [namesAlong] at hn'
          cases hd : c.accounts[j]? with
          | none => simp [hd] at hb
          | some d =>
            simp only [hd] at hb hn'
            cases hn'' : namesAlong d.accounts pos with
            | none => simp [hn''] at hn'
            | some ns' =>
              simp [hn''] at hn'; subst hn'
              rw [WFc_at pos _ d (h4 d (List.mem_of_getElem? hd)) b ns' hb hn'', h2]
              simp [joinSlash]

/-- existence of the names along a valid position -/
theorem namesAlong_of_at (pos : List Nat) : ∀ (a b : Account), a.at? pos = some b →
    ∃ ns, namesAlong a.accounts pos = some ns := by
  induction pos with
  | nil => intro a b _; exact ⟨[], rfl⟩
  | cons i pos ih =>
    intro a b h
    simp only [Account.at?] at h
    cases hc : a.accounts[i]? with
    | none => simp [hc] at h
    | some c =>
      simp only [hc] at h
      obtain ⟨ns, hns⟩ := ih c b h
      exact ⟨c.name :: ns, by simp [namesAlong, hc, hns]⟩

theorem namesAlong_of_forestAt {l : List Account} {pos : List Nat} {b : Account} (h : forestAt? l pos = some b) :
    ∃ ns, namesAlong l pos = some ns := by
  cases pos with
  | nil => simp [forestAt?] at h
  | cons i pos =>
    simp only [forestAt?] at h
    cases hc : l[i]? with
    | none => simp [hc] at h
    | some c =>
      simp only [hc] at h
      obtain ⟨ns, hns⟩ := namesAlong_of_at pos c b h
      exact ⟨c.name :: ns, by simp [namesAlong, hc, hns]⟩

/-! ## Lookup -/

theorem split1_segments (s : Str) :
    (split1 s = none → segments s = [s] ∧ '/' ∉ s) ∧
    (∀ x y, split1 s = some (x, y) → segments s = x :: segments y ∧ '/' ∉ x ∧ s = x ++ '/' :: y) := by
  induction s with
  | nil => simp [split1, segments]
  | cons c cs ih =>
    by_cases hc : c = '/'
    · subst hc; simp [split1, segments]
    · simp only [split1, hc, if_false, segments]
      cases hs : split1 cs with
      | none =>
        simp [(ih.1 hs).1, (ih.1 hs).2, Ne.symm hc]
      | some xy =>
        obtain ⟨x, y⟩ := xy
        have := ih.2 x y hs
        simp only [this.1]
        refine ⟨by simp, ?_⟩
        intro x' y' h
        simp at h
        obtain ⟨rfl, rfl⟩ := h
        refine ⟨rfl, by simp [this.2.1, Ne.symm hc], by simp [← this.2.2]⟩

theorem segments_ne_nil (s : Str) : segments s ≠ [] := by
  cases s with
  | nil => simp [segments]
  | cons c cs =>
    simp only [segments]; split
    · simp
    · split <;> simp

theorem filter_find {p : Account → Bool} (l : List Account) :
    (match l.filter p with | [] => none | c :: _ => some c) = l.find? p := by
  rw [← List.head?_filter]
  cases l.filter p <;> rfl

/-- Lift a missing account to the exception raised inside an account. -/
def orIndexError : Option Account → Res Account
  | some a => .ok a
  | none => .error .indexError

theorem getItem_eq (a : Account) (k : Str) :
    a.getItem k = orIndexError (a.accounts.find? (fun c => c.name = k)) := by
  rw [← filter_find]; unfold Account.getItem
  cases a.accounts.filter (fun c => decide (c.name = k)) <;> rfl

theorem walk_cons (l : List Account) (n : Str) (ns : List Str) (h : ns ≠ []) :
    walk l (n :: ns) = (match l.find? (fun a => a.name = n) with
      | none => none
      | some a => walk a.accounts ns) := by
  cases ns with
  | nil => exact absurd rfl h
  | cons m r => rfl

theorem getChild_eq (a : Account) (s : Str) :
    a.getChildAccount s = orIndexError (walk a.accounts (segments s)) := by
  generalize hn : s.length = n
  induction n using Nat.strongRecOn generalizing a s with
  | _ n ih =>
  rw [Account.getChildAccount]
  split
  · rename_i x y h
    have hseg := (split1_segments s).2 x y h
    rw [hseg.1, walk_cons _ _ _ (segments_ne_nil y), getItem_eq]
    cases hf : a.accounts.find? (fun c => c.name = x) with
    | none => simp [orIndexError]
    | some c =>
      simp only [orIndexError]
      exact ih _ (by rw [← hn]; exact split1_length h) c y rfl
  · rename_i h
    rw [((split1_segments s).1 h).1, getItem_eq]
    rfl

theorem structGetItem_eq (s : Structure) (k : Str) :
    s.getItem k = s.accounts.find? (fun c => c.name = k) := by
  rw [← filter_find]; unfold Structure.getItem
  cases s.accounts.filter (fun c => decide (c.name = k)) <;> rfl

theorem getAccount_eq (s : Structure) (p : Str) :
    s.getAccount p = (match walk s.accounts (segments p) with
      | some a => .ok (some a)
      | none => if (∃ a ∈ s.accounts, some a.name = (segments p).head?) ∧ '/' ∈ p
          then .error .indexError else .ok none) := by
  unfold Structure.getAccount
  cases h : split1 p with
  | none =>
    obtain ⟨h1, h2⟩ := (split1_segments p).1 h
    simp only [h1, walk, structGetItem_eq]
    cases hf : s.accounts.find? (fun c => c.name = p) <;> simp [h2]
  | some xy =>
    obtain ⟨x, y⟩ := xy
    obtain ⟨h1, h2, h3⟩ := (split1_segments p).2 x y h
    simp only [h1, walk_cons _ _ _ (segments_ne_nil y), structGetItem_eq]
    cases hf : s.accounts.find? (fun c => c.name = x) with
    | none =>
      simp only [List.find?_eq_none, decide_eq_true_eq] at hf
      rw [if_neg]
      rintro ⟨⟨a, ha, hax⟩, _⟩
      simp at hax
      exact hf a ha hax
    | some c =>
      simp only [getChild_eq]
      cases hw : walk c.accounts (segments y) with
      | some a => simp [orIndexError, Except.map]
      | none =>
        simp only [orIndexError, Except.map]
        rw [if_pos]
        have := List.find?_some hf
        simp at this
        exact ⟨⟨c, List.mem_of_find?_eq_some hf, by simp [this]⟩, by rw [h3]; simp⟩

theorem segments_join (ns : List Str) (hne : ns ≠ []) (h : ∀ n ∈ ns, '/' ∉ n) : segments (joinSlash ns) = ns := by
  have key : ∀ (n : Str) (t : Str), '/' ∉ n → segments (n ++ '/' :: t) = n :: segments t := by
    intro n t hn
    induction n with
    | nil => simp [segments]
    | cons c cs ih =>
      simp at hn
      simp [segments, Ne.symm hn.1, ih hn.2]
  have key1 : ∀ (n : Str), '/' ∉ n → segments n = [n] := by
    intro n hn
    induction n with
    | nil => simp [segments]
    | cons c cs ih =>
      simp at hn
      simp [segments, Ne.symm hn.1, ih hn.2]
  induction ns with
  | nil => exact absurd rfl hne
  | cons n ns ih =>
    cases ns with
    | nil => simpa [joinSlash] using key1 n (h n (by simp))
    | cons m r =>
      simp only [joinSlash]
      rw [key n _ (h n (by simp)), ih (by simp) (fun x hx => h x (by simp [hx]))]

theorem find_unique {l : List Account} {i : Nat} {a : Account} (h : (l.map Account.name).Nodup)
    (hi : l[i]? = some a) : l.find? (fun c => c.name = a.name) = some a := by
  induction l generalizing i with
  | nil => simp at hi
  | cons c cs ih =>
    simp only [List.map_cons, List.nodup_cons] at h
    cases i with
    | zero => simp at hi; subst hi; simp
    | succ i =>
      simp at hi
      have hmem : a ∈ cs := List.mem_of_getElem? hi
      have hne : c.name ≠ a.name := fun e => h.1 (by rw [e]; exact List.mem_map_of_mem hmem)
      rw [List.find?_cons_of_neg (by simpa using hne)]
      exact ih h.2 hi

theorem NiceNames_sub {l : List Account} (h : NiceNames l) {i : Nat} {a : Account} (hi : l[i]? = some a) :
    NiceNames a.accounts := by
  intro pos kids hk
  apply h (i :: pos) kids
  right
  rcases hk with ⟨rfl, rfl⟩ | ⟨b, hb, rfl⟩
  · exact ⟨a, by simp [forestAt?, hi, Account.at?], rfl⟩
  · refine ⟨b, ?_, rfl⟩
    simp only [forestAt?, hi]
    cases pos with
    | nil => simp [forestAt?] at hb
    | cons j pos => simpa [forestAt?, Account.at?] using hb

theorem walk_names (pos : List Nat) : ∀ (l : List Account), NiceNames l → ∀ b ns, forestAt? l pos = some b →
    namesAlong l pos = some ns → walk l ns = some b ∧ ns ≠ [] ∧ ∀ n ∈ ns, '/' ∉ n := by
  induction pos with
  | nil => intro l _ b ns hb; simp [forestAt?] at hb
  | cons i pos ih =>
    intro l hl b ns hb hn
    simp only [forestAt?] at hb
    simp only [namesAlong] at hn
    cases hc : l[i]? with
    | none => simp [hc] at hb
    | some c =>
      simp only [hc] at hb hn
      have hnd := hl [] l (Or.inl ⟨rfl, rfl⟩)
      have hfind := find_unique hnd.1 hc
      have hslash := hnd.2 c (List.mem_of_getElem? hc)
      cases pos with
      | nil =>
        simp [Account.at?] at hb; simp [namesAlong] at hn; subst hb hn
        simp [walk, hfind, hslash]
      | cons j pos =>
        cases hn' : namesAlong c.accounts (j :: pos) with
        | none => simp [hn'] at hn
        | some ns' =>
          simp [hn'] at hn; subst hn
          have hb' : forestAt? c.accounts (j :: pos) = some b := by
            simpa [forestAt?, Account.at?] using hb
          obtain ⟨h1, h2, h3⟩ := ih c.accounts (NiceNames_sub hl hc) b ns' hb' hn'
          refine ⟨?_, by simp, ?_⟩
          · rw [walk_cons _ _ _ h2, hfind]; exact h1
          · intro n hn; simp at hn; rcases hn with rfl | hn
            · exact hslash
            · exact h3 n hn

/-! ## Descendants -/

mutual
/-- positions of an account and its descendants, in preorder -/
def posAnd : Account → List (List Nat)
  | ⟨_, _, _, _, _, _, cs⟩ => [] :: posList 0 cs
def posList (k : Nat) : List Account → List (List Nat)
  | [] => []
  | c :: cs => (posAnd c).map (k :: ·) ++ posList (k + 1) cs
end

/-- lookup in a list whose first index is `k` -/
def shiftAt (k : Nat) (l : List Account) : List Nat → Option Account
  | [] => none
  | i :: p => if i < k then none else match l[i - k]? with
    | none => none
    | some c => c.at? p

theorem posList_head {k : Nat} : ∀ {l : List Account} {q : List Nat}, q ∈ posList k l → ∃ i p, q = i :: p ∧ k ≤ i
  | [], q, h => by simp [posList] at h
  | c :: cs, q, h => by
    simp only [posList, List.mem_append, List.mem_map] at h
    rcases h with ⟨p, _, rfl⟩ | h
    · exact ⟨k, p, rfl, Nat.le_refl _⟩
    · obtain ⟨i, p, rfl, hi⟩ := posList_head h
      exact ⟨i, p, rfl, by omega⟩

theorem shiftAt_succ {k : Nat} {c : Account} {cs : List Account} {q : List Nat} (h : ∃ i p, q = i :: p ∧ k + 1 ≤ i) :
    shiftAt k (c :: cs) q = shiftAt (k + 1) cs q := by
  obtain ⟨i, p, rfl, hi⟩ := h
  have e : i - k = (i - (k + 1)) + 1 := by omega
  have h1 : ¬ i < k := by omega
  have h2 : ¬ i < k + 1 := by omega
  simp only [shiftAt, h1, h2, if_false, e, List.getElem?_cons_succ]

mutual
theorem desc_posAnd : ∀ a : Account, a.andDescendants.map some = (posAnd a).map (fun q => a.at? q)
  | ⟨n, d, num, t, pp, pa, cs⟩ => by
    simp only [Account.andDescendants, posAnd, List.map_cons, Account.at?]
    congr 1
    rw [desc_posList 0 cs]
    apply List.map_congr_left
    intro q hq
    obtain ⟨i, p, rfl, _⟩ := posList_head hq
    simp only [shiftAt, Account.at?, Nat.not_lt_zero, if_false, Nat.sub_zero]
    cases cs[i]? <;> rfl
theorem desc_posList (k : Nat) : ∀ l : List Account, (descList l).map some = (posList k l).map (fun q => shiftAt k l q)
  | [] => by simp [descList, posList]
  | c :: cs => by
    simp only [descList, posList, List.map_append, List.map_map]
    congr 1
    · rw [desc_posAnd c]
      apply List.map_congr_left
      intro q _
      simp [shiftAt]
    · rw [desc_posList (k + 1) cs]
      apply List.map_congr_left
      intro q hq
      rw [shiftAt_succ (posList_head hq)]
end

mutual
theorem mem_posAnd : ∀ (a : Account) (q : List Nat), q ∈ posAnd a ↔ (a.at? q).isSome
  | ⟨n, d, num, t, pp, pa, cs⟩, q => by
    simp only [posAnd, List.mem_cons, mem_posList]
    cases q with
    | nil => simp [Account.at?]
    | cons i p =>
      simp only [Account.at?, shiftAt, Nat.not_lt_zero, if_false, Nat.sub_zero, reduceCtorEq, false_or]
      cases cs[i]? <;> rfl
theorem mem_posList (k : Nat) : ∀ (l : List Account) (q : List Nat), q ∈ posList k l ↔ (shiftAt k l q).isSome
  | [], q => by
    cases q with
    | nil => simp [posList, shiftAt]
    | cons i p => simp [posList, shiftAt]
  | c :: cs, q => by
    simp only [posList, List.mem_append, List.mem_map]
    rw [mem_posList (k + 1) cs]
    cases q with
    | nil => simp [shiftAt]
    | cons i p =>
      by_cases h : k + 1 ≤ i
      · rw [shiftAt_succ ⟨i, p, rfl, h⟩]
        simp; intro e; omega
      · by_cases h' : i < k
        · simp [shiftAt, h', Nat.lt_succ_of_lt h']; omega
        · have : i = k := by omega
          subst this
          simp [shiftAt, mem_posAnd c]
end

mutual
theorem sorted_posAnd : ∀ a : Account, (posAnd a).Pairwise (· < ·)
  | ⟨n, d, num, t, pp, pa, cs⟩ => by
    simp only [posAnd, List.pairwise_cons]
    refine ⟨?_, sorted_posList 0 cs⟩
    intro q hq
    obtain ⟨i, p, rfl, _⟩ := posList_head hq
    exact List.nil_lt_cons ..
theorem sorted_posList (k : Nat) : ∀ l : List Account, (posList k l).Pairwise (· < ·)
  | [] => by simp [posList]
  | c :: cs => by
    simp only [posList, List.pairwise_append]
    refine ⟨?_, sorted_posList (k + 1) cs, ?_⟩
    · rw [List.pairwise_map]
      exact (sorted_posAnd c).imp (fun h => by simpa using h)
    · intro x hx y hy
      simp only [List.mem_map] at hx
      obtain ⟨p, _, rfl⟩ := hx
      obtain ⟨i, r, rfl, hi⟩ := posList_head hy
      rw [List.cons_lt_cons_iff]; left; omega
end

/-! ## Types -/

inductive AllType (t : AccountType) : Account → Prop
  | mk {a : Account} (h : a.accountType = t) (h2 : ∀ c ∈ a.accounts, AllType t c) : AllType t a

mutual
theorem allType_spp {t : AccountType} (p : Str) : ∀ a : Account, AllType t a → AllType t (a.setParentPath p)
  | ⟨n, d, num, ty, pp, pa, cs⟩, h => by
    cases h with | mk h h2 =>
    exact AllType.mk h (allType_upd _ cs h2)
theorem allType_upd {t : AccountType} (p : Str) : ∀ l : List Account, (∀ c ∈ l, AllType t c) →
    ∀ c ∈ updateChildrens p l, AllType t c
  | [], _ => by simp [updateChildrens]
  | c :: cs, h => by
    intro x hx
    simp only [updateChildrens, List.mem_cons] at hx
    rcases hx with rfl | hx
    · exact allType_spp p c (h c (by simp))
    · exact allType_upd p cs (fun c hc => h c (by simp [hc])) x hx
end

theorem allType_create {t n num d} {a : Account} (h : AllType t a) : AllType t (a.createAccount n num d) := by
  cases h with | mk h h2 =>
  refine AllType.mk h ?_
  intro c hc
  simp only [Account.createAccount, List.mem_append, List.mem_singleton] at hc
  rcases hc with hc | rfl
  · exact h2 c hc
  · exact allType_spp _ _ (AllType.mk (by simp [Account.new, h]) (by simp [Account.new]))

theorem allType_remove {t n} {a : Account} (h : AllType t a) : AllType t (a.removeAccount n) := by
  cases h with | mk h h2 =>
  exact AllType.mk h (fun c hc => h2 c ((removeNamed_sublist n _).subset hc))

theorem allType_rename {t n} {a : Account} (h : AllType t a) : AllType t (a.rename n) := by
  cases h with | mk h h2 =>
  exact AllType.mk h (allType_upd _ _ h2)

theorem allType_modAt {f : Account → Account} (hf : ∀ t a, AllType t a → AllType t (f a)) :
    ∀ (pos : List Nat) (t : AccountType) (a : Account), AllType t a → AllType t (a.modAt f pos)
  | [], t, a, h => hf t a h
  | i :: pos, t, a, h => by
    cases h with | mk h h2 =>
    refine AllType.mk h ?_
    intro c hc
    rcases mem_modify hc with hc | ⟨y, hy, rfl⟩
    · exact h2 c hc
    · exact allType_modAt hf pos _ y (h2 y hy)

theorem allType_forest {f : Account → Account} (hf : ∀ t a, AllType t a → AllType t (f a)) (l : List Account)
    (pos : List Nat) (h : ∀ a ∈ l, AllType a.accountType a) : ∀ a ∈ forestMod f l pos, AllType a.accountType a := by
  cases pos with
  | nil => exact h
  | cons i pos =>
    intro a ha
    rcases mem_modify ha with ha | ⟨y, hy, rfl⟩
    · exact h a ha
    · have := allType_modAt hf pos _ y (h y hy)
      have e : (y.modAt f pos).accountType = y.accountType := by cases this with | mk h _ => exact h
      rw [e]; exact this

theorem allType_op (l : List Account) (h : ∀ a ∈ l, AllType a.accountType a) (op : Op) :
    ∀ a ∈ op.apply l, AllType a.accountType a := by
  cases op with
  | create pos n num d => exact allType_forest (fun _ _ => allType_create) l pos h
  | remove pos n => exact allType_forest (fun _ _ => allType_remove) l pos h
  | rename pos n => exact allType_forest (fun _ _ => allType_rename) l pos h

theorem allType_ops (ops : List Op) : ∀ l : List Account, (∀ a ∈ l, AllType a.accountType a) →
    ∀ a ∈ ops.foldl Op.apply l, AllType a.accountType a := by
  induction ops with
  | nil => intro l h; exact h
  | cons op ops ih => intro l h; exact ih _ (allType_op l h op)

theorem allType_at {t : AccountType} (pos : List Nat) : ∀ a b : Account, AllType t a → a.at? pos = some b → b.accountType = t := by
  induction pos with
  | nil => intro a b h hb; simp [Account.at?] at hb; subst hb; cases h with | mk h _ => exact h
  | cons i pos ih =>
    intro a b h hb
    simp only [Account.at?] at hb
    cases hc : a.accounts[i]? with
    | none => simp [hc] at hb
    | some c =>
      simp only [hc] at hb
      cases h with | mk h h2 => exact ih c b (h2 c (List.mem_of_getElem? hc)) hb

theorem allType_default : ∀ a ∈ defaultAccounts, AllType a.accountType a := by
  have hn : ∀ n num t, AllType t (Account.new n none num t) := fun n num t => AllType.mk rfl (by simp [Account.new])
  simp only [defaultAccounts, List.forall_mem_cons, ca]
  refine ⟨allType_create (allType_create (hn _ _ _)), hn _ _ _, hn _ _ _, hn _ _ _, hn _ _ _, allType_create (hn _ _ _),
    hn _ _ _, hn _ _ _, allType_create (hn _ _ _), hn _ _ _, hn _ _ _, hn _ _ _, hn _ _ _,
    hn _ _ _, hn _ _ _, hn _ _ _, hn _ _ _, allType_create (hn _ _ _), hn _ _ _, hn _ _ _, hn _ _ _, hn _ _ _, ?_⟩
  simp

/-! ## Create / remove -/

theorem lastIdx_append (n : Str) (l : List Account) (a : Account) (h : a.name = n) :
    lastIdx n (l ++ [a]) = some l.length := by
  induction l with
  | nil => simp [lastIdx, h]
  | cons c cs ih => simp [lastIdx, ih]

theorem lastIdx_none_iff (n : Str) (l : List Account) : lastIdx n l = none ↔ ∀ a ∈ l, a.name ≠ n := by
  induction l with
  | nil => simp [lastIdx]
  | cons c cs ih =>
    simp only [lastIdx]
    cases h : lastIdx n cs with
    | some i =>
      simp only [h, reduceCtorEq, false_iff] at ih
      simp only [reduceCtorEq, List.mem_cons, forall_eq_or_imp, false_iff]
      exact fun hh => ih hh.2
    | none =>
      have := ih.1 h
      by_cases hc : c.name = n <;> simp [hc]; exact this

theorem name_setParentPath (p : Str) (a : Account) : (a.setParentPath p).name = a.name := by
  cases a; rfl

theorem create_remove (n : Str) (num d : Option Str) (a : Account) :
    (a.createAccount n num d).removeAccount n = a := by
  simp only [Account.createAccount, Account.removeAccount, removeNamed]
  rw [lastIdx_append _ _ _ (by rw [name_setParentPath]; rfl)]
  cases a; simp [List.eraseIdx_append_of_length_le]

theorem validate_iff (s : Structure) (names : List Str) :
    s.validateAccountNames names = .ok () ↔ ∀ n ∈ names, (walk s.accounts (segments n)).isSome := by
  induction names with
  | nil => simp [Structure.validateAccountNames]
  | cons n ns ih =>
    simp only [Structure.validateAccountNames, List.mem_cons, forall_eq_or_imp]
    rw [getAccount_eq]
    cases walk s.accounts (segments n) with
    | some a => simp [ih]
    | none =>
      by_cases hh : ((∃ a ∈ s.accounts, some a.name = (segments n).head?) ∧ '/' ∈ n)
      · simp only [hh]; simp
      · simp only [hh]; simp

end Auxi.Ledger
