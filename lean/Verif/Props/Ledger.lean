import Verif.Proofs.Ledger

/-!
# Properties C03–C09: general ledger accounts
-/
namespace Auxi.Ledger.Props
open Auxi.Ledger Auxi.Ledger.Spec

/-- **C03.** After any history of create / remove / rename operations (at any depth, none of which renames a
top level account to the empty string), every account's `path` is `'/'.join` of the names on its way. -/
theorem C03_paths_spell_position (ops : List Op) (hops : ∀ op ∈ ops, TopNonempty op)
    (pos : List Nat) (a : Account) (ha : forestAt? (runOps ops) pos = some a) :
    ∃ names, namesAlong (runOps ops) pos = some names ∧ a.path = joinSlash names := by
  obtain ⟨ns, hns⟩ := namesAlong_of_forestAt ha
  exact ⟨ns, hns, WF_forest_at _ (WF_ops ops _ WF_default hops) pos a ns ha hns⟩

/-- Concrete history: a nested account below `Sales`, whose ancestor is then renamed. -/
def exampleOps : List Op :=
  [.create [1] "A".toList none none, .create [1, 0] "B".toList none none, .rename [1] "Turnover".toList,
   .create [1] "A".toList none none, .remove [1] "A".toList]

example : (∀ op ∈ exampleOps, TopNonempty op) ∧
    (forestAt? (runOps exampleOps) [1, 0, 0]).map Account.path = some "Turnover/A/B".toList := by
  constructor
  · simp [exampleOps, TopNonempty]
  · decide

/-- The guard of C03 is needed: renaming a top level account to `""` and then renaming its child drops the
leading `'/'` that the child had before. -/
theorem C03_guard_needed :
    let l := runOps [.rename [17] [], .rename [17, 0] "X".toList]
    (forestAt? l [17, 0]).map Account.path = some "X".toList ∧
      namesAlong l [17, 0] = some [[], "X".toList] ∧ joinSlash [[], "X".toList] = "/X".toList := by
  decide

/-- **C04 (soundness and completeness).** `get_account` returns an account exactly when walking the segments
of the path, first match at each level, arrives at it. -/
theorem C04_lookup_is_walk (s : Structure) (p : Str) (a : Account) :
    s.getAccount p = .ok (some a) ↔ walk s.accounts (segments p) = some a := by
  rw [getAccount_eq]
  cases walk s.accounts (segments p) with
  | some b => simp
  | none => simp only; split <;> simp

/-- **C04 (round trip).** With sibling-unique, slash-free names every account of any history is found under its
own `path`. -/
theorem C04_lookup_own_path (nm tp : Str) (ops : List Op) (hops : ∀ op ∈ ops, TopNonempty op)
    (hn : NiceNames (runOps ops)) (pos : List Nat) (a : Account) (ha : forestAt? (runOps ops) pos = some a) :
    Structure.getAccount ⟨nm, runOps ops, tp⟩ a.path = .ok (some a) := by
  obtain ⟨ns, hns, hp⟩ := C03_paths_spell_position ops hops pos a ha
  obtain ⟨h1, h2, h3⟩ := walk_names pos _ hn a ns ha hns
  rw [C04_lookup_is_walk, hp, segments_join ns h2 h3]
  exact h1

/-- Boolean check of `NiceNames` used only for the example below. -/
def niceB : Nat → List Account → Bool
  | 0, _ => false
  | n + 1, l => (l.map Account.name).Nodup && l.all (fun c => '/' ∉ c.name && niceB n c.accounts)

theorem niceB_sound (n : Nat) : ∀ l, niceB n l = true → NiceNames l := by
  induction n with
  | zero => intro l h; simp [niceB] at h
  | succ n ih =>
    intro l h pos kids hk
    simp only [niceB, Bool.and_eq_true, decide_eq_true_eq, List.all_eq_true] at h
    rcases hk with ⟨rfl, rfl⟩ | ⟨a, ha, rfl⟩
    · exact ⟨h.1, fun c hc => (h.2 c hc).1⟩
    · cases pos with
      | nil => simp [forestAt?] at ha
      | cons i pos =>
        simp only [forestAt?] at ha
        cases hc : l[i]? with
        | none => simp [hc] at ha
        | some c =>
          simp only [hc] at ha
          have hcn := ih c.accounts (h.2 c (List.mem_of_getElem? hc)).2
          cases pos with
          | nil =>
            simp [Account.at?] at ha; subst ha
            exact hcn [] _ (Or.inl ⟨rfl, rfl⟩)
          | cons j pos =>
            refine hcn (j :: pos) _ (Or.inr ⟨a, ?_, rfl⟩)
            simpa [forestAt?, Account.at?] using ha

example : NiceNames (runOps exampleOps) := niceB_sound 4 _ (by decide)

/-- **C05 is false of the code**: looking up `Bank/Nope` in a new structure raises `IndexError` instead of
returning `None`. -/
theorem C05_missing_nested_raises (nm : Str) :
    (Structure.new nm).getAccount "Bank/Nope".toList = .error .indexError := by
  rw [getAccount_eq]
  have hw : walk (Structure.new nm).accounts (segments "Bank/Nope".toList) = none := by
    show walk defaultAccounts _ = none
    have : (walk defaultAccounts (segments "Bank/Nope".toList)).isNone = true := by decide
    simpa using this
  rw [hw]
  simp only
  rw [if_pos]
  refine ⟨?_, by decide⟩
  show ∃ a ∈ defaultAccounts, _
  exact ⟨(ca "Bank" "B60" .asset).createAccount "Default".toList (some "0000".toList) none, by
    simp [defaultAccounts], by decide⟩

/-- **C05, what does hold.** A failed lookup gives `None` exactly when the path has a single segment or its
first segment is not a top level account; otherwise it raises `IndexError`. No other exception is possible. -/
theorem C05_missing_partial (s : Structure) (p : Str) (h : walk s.accounts (segments p) = none) :
    (s.getAccount p = .ok none ↔ '/' ∉ p ∨ ∀ a ∈ s.accounts, some a.name ≠ (segments p).head?) ∧
    (s.getAccount p = .error .indexError ↔ '/' ∈ p ∧ ∃ a ∈ s.accounts, some a.name = (segments p).head?) := by
  rw [getAccount_eq, h]
  simp only
  by_cases hh : (∃ a ∈ s.accounts, some a.name = (segments p).head?) ∧ '/' ∈ p
  · rw [if_pos hh]
    obtain ⟨⟨a, ha, hax⟩, hs⟩ := hh
    refine ⟨?_, by simp [hs]; exact ⟨a, ha, hax⟩⟩
    simp only [reduceCtorEq, false_iff, not_or]
    exact ⟨fun h => h hs, fun h => h a ha hax⟩
  · rw [if_neg hh]
    refine ⟨?_, ?_⟩
    · simp only [true_iff]
      by_cases hs : '/' ∈ p
      · right; intro a ha hax; exact hh ⟨⟨a, ha, hax⟩, hs⟩
      · left; exact hs
    · simp only [reduceCtorEq, false_iff]; rintro ⟨hs, he⟩; exact hh ⟨he, hs⟩

example : walk (Structure.new []).accounts (segments "Nope/Default".toList) = none := by
  show walk defaultAccounts _ = none
  have : (walk defaultAccounts (segments "Nope/Default".toList)).isNone = true := by decide
  simpa using this

/-- **C06.** `validate_account_names` succeeds iff every name denotes an account. -/
theorem C06_validate (s : Structure) (names : List Str) :
    s.validateAccountNames names = .ok () ↔ ∀ n ∈ names, ∃ a, walk s.accounts (segments n) = some a := by
  rw [validate_iff]; simp [Option.isSome_iff_exists]

example (nm : Str) : (Structure.new nm).validateAccountNames ["Bank/Default".toList, "Sales".toList] = .ok () := by
  rw [validate_iff]
  show ∀ n ∈ _, (walk defaultAccounts (segments n)).isSome = true
  decide

/-- **C07.** `get_account_descendants` lists the accounts at all positions strictly below, each position exactly
once, in lexicographic (pre)order of positions, so parents come before their children. -/
theorem C07_descendants (a : Account) :
    ∃ ps : List (List Nat), a.descendants.map some = ps.map (fun q => a.at? q) ∧
      ps.Pairwise (· < ·) ∧ ∀ q, q ∈ ps ↔ q ≠ [] ∧ (a.at? q).isSome := by
  refine ⟨posList 0 a.accounts, ?_, sorted_posList 0 _, ?_⟩
  · unfold Account.descendants
    rw [desc_posList 0]
    apply List.map_congr_left
    intro q hq
    obtain ⟨i, p, rfl, _⟩ := posList_head hq
    simp only [shiftAt, Account.at?, Nat.not_lt_zero, if_false, Nat.sub_zero]
    cases a.accounts[i]? <;> rfl
  · intro q
    rw [mem_posList]
    cases q with
    | nil => simp [shiftAt]
    | cons i p =>
      simp only [shiftAt, Account.at?, Nat.not_lt_zero, if_false, Nat.sub_zero]
      cases a.accounts[i]? <;> simp

example : ((forestAt? (runOps exampleOps) [1]).map (fun a => a.descendants.map Account.path)) =
    some ["Turnover/A".toList, "Turnover/A/B".toList] := by decide

/-- **C08.** In every history an account has the type of the top level account it is below. -/
theorem C08_type_of_top (ops : List Op) (i : Nat) (p : List Nat) (top a : Account)
    (ht : forestAt? (runOps ops) [i] = some top) (ha : forestAt? (runOps ops) (i :: p) = some a) :
    a.accountType = top.accountType := by
  have h := allType_ops ops _ allType_default
  simp only [forestAt?] at ht ha
  cases hc : (runOps ops)[i]? with
  | none => simp [hc] at ht
  | some c =>
    simp only [hc, Account.at?, Option.some.injEq] at ht ha
    subst ht
    exact allType_at p c a (h c (List.mem_of_getElem? hc)) ha

/-- The types of the top level accounts never change, nor does their number: operations act below. -/
theorem C08_top_level_fixed (ops : List Op) :
    (runOps ops).map Account.accountType = defaultAccounts.map Account.accountType ∧
    (runOps ops).map Account.number = defaultAccounts.map Account.number := by
  have modAt_head : ∀ (f : Account → Account) (_ : ∀ a, (f a).accountType = a.accountType ∧ (f a).number = a.number)
      (pos : List Nat) (a : Account), (a.modAt f pos).accountType = a.accountType ∧ (a.modAt f pos).number = a.number := by
    intro f hf pos a; cases pos with
    | nil => exact hf a
    | cons i p => exact ⟨rfl, rfl⟩
  have mod_map : ∀ {β : Type} (g : Account → β) (f : Account → Account) (_ : ∀ a, g (f a) = g a) (l : List Account) (i : Nat),
      (l.modify i f).map g = l.map g := by
    intro β g f hf l
    induction l with
    | nil => intro i; cases i <;> rfl
    | cons c cs ih => intro i; cases i with
      | zero => simp [hf]
      | succ i => simp [ih]
  have forest : ∀ (f : Account → Account) (_ : ∀ a, (f a).accountType = a.accountType ∧ (f a).number = a.number)
      (l : List Account) (pos : List Nat), (forestMod f l pos).map Account.accountType = l.map Account.accountType ∧
        (forestMod f l pos).map Account.number = l.map Account.number := by
    intro f hf l pos; cases pos with
    | nil => exact ⟨rfl, rfl⟩
    | cons i p => exact ⟨mod_map _ _ (fun a => (modAt_head f hf p a).1) l i, mod_map _ _ (fun a => (modAt_head f hf p a).2) l i⟩
  have step : ∀ (l : List Account) (op : Op), (op.apply l).map Account.accountType = l.map Account.accountType ∧
      (op.apply l).map Account.number = l.map Account.number := by
    intro l op
    cases op with
    | create pos n num d => exact forest (Account.createAccount n num d) (fun a => ⟨rfl, rfl⟩) l pos
    | remove pos n => exact forest (Account.removeAccount n) (fun a => ⟨rfl, rfl⟩) l pos
    | rename pos n => exact forest (Account.rename n) (fun a => ⟨rfl, rfl⟩) l pos
  have : ∀ (ops : List Op) (l : List Account), (ops.foldl Op.apply l).map Account.accountType = l.map Account.accountType ∧
      (ops.foldl Op.apply l).map Account.number = l.map Account.number := by
    intro ops
    induction ops with
    | nil => intro l; exact ⟨rfl, rfl⟩
    | cons op ops ih =>
      intro l
      exact ⟨(ih _).1.trans (step l op).1, (ih _).2.trans (step l op).2⟩
  exact this ops _

example : (forestAt? (runOps exampleOps) [1, 0, 0]).map Account.accountType = some .revenue := by decide

/-- **C08 (the chart).** A new ledger has exactly the accounts of the chart, each with its name, number, type and path, and in
every later history the top level accounts keep the numbers and types of the chart. -/
theorem C08_chart (ledger : Str) (ops : List Op) :
    ((Structure.new ledger).accounts.map (fun a => (a.name, a.number, a.accountType, a.path, a.accounts.map (fun c => (c.name, c.number, c.path, c.accountType, c.accounts.length)))) =
      chart.map (fun r => (r.1.toList, some r.2.1.toList, r.2.2.1, r.1.toList,
        r.2.2.2.map (fun c => (c.1.toList, some c.2.toList, r.1.toList ++ '/' :: c.1.toList, r.2.2.1, 0))))) ∧
    (runOps ops).map (fun a => (a.number, a.accountType)) = chart.map (fun r => (some r.2.1.toList, r.2.2.1)) := by
  refine ⟨rfl, ?_⟩
  have h := C08_top_level_fixed ops
  have e1 : defaultAccounts.map Account.accountType = chart.map (fun r => r.2.2.1) := by decide +kernel
  have e2 : defaultAccounts.map Account.number = chart.map (fun r => some r.2.1.toList) := by decide +kernel
  rw [e1, e2] at h
  have z1 : (runOps ops).map (fun a => (a.number, a.accountType)) =
      ((runOps ops).map Account.number).zip ((runOps ops).map Account.accountType) := by rw [List.zip_map']
  have z2 : chart.map (fun r => (some r.2.1.toList, r.2.2.1)) =
      (chart.map (fun r => some r.2.1.toList)).zip (chart.map (fun r => r.2.2.1)) := by rw [List.zip_map']
  rw [z1, h.1, h.2, z2]

/-- **C09.** Creating a child account and removing its name again is a no-op on the whole account, also when
siblings of the same name existed. -/
theorem C09_create_remove (n : Str) (num d : Option Str) (a : Account) :
    (a.createAccount n num d).removeAccount n = a := create_remove n num d a

/-- Removing a name no child has changes nothing. -/
theorem C09_remove_missing (n : Str) (a : Account) (h : ∀ c ∈ a.accounts, c.name ≠ n) :
    a.removeAccount n = a := by
  cases a
  simp only [Account.removeAccount, removeNamed]
  rw [(lastIdx_none_iff _ _).2 h]

/-- Removing an existing name removes exactly the last child of that name. -/
theorem C09_remove_last (n : Str) (a : Account) (xs ys : List Account) (c : Account)
    (h : a.accounts = xs ++ c :: ys) (hc : c.name = n) (hy : ∀ y ∈ ys, y.name ≠ n) :
    (a.removeAccount n).accounts = xs ++ ys := by
  have key : ∀ xs : List Account, lastIdx n (xs ++ c :: ys) = some xs.length := by
    intro xs
    induction xs with
    | nil => simp [lastIdx, (lastIdx_none_iff n ys).2 hy, hc]
    | cons x xs ih => simp [lastIdx, ih]
  simp only [Account.removeAccount, removeNamed, h, key]
  simp [List.eraseIdx_append_of_length_le]

example : ∃ a : Account, ∃ xs c ys, a.accounts = xs ++ c :: ys ∧ c.name = "A".toList ∧
    (∀ y ∈ ys, y.name ≠ "A".toList) ∧ xs ≠ [] ∧ ys ≠ [] := by
  refine ⟨((((ca "S" "1" .revenue).createAccount "A".toList none none).createAccount "A".toList none none).createAccount
    "B".toList none none), [_], _, [_], rfl, rfl, ?_, by simp, by simp⟩
  simp [name_setParentPath, Account.new]

end Auxi.Ledger.Props
