import Verif.Spec.Version
import Mathlib.Data.List.Infix
import Mathlib.Tactic.Tauto

/-! # C161: updating the version -/
namespace Auxi.Version.Props
open Auxi.Version Spec

/-! ## `str.replace` -/

theorem replaceFrom_fuel (old new : Str) (ho : old ≠ []) : ∀ (n m : Nat) (s : Str), s.length ≤ n → s.length ≤ m → replaceFrom old new n s = replaceFrom old new m s := by
  intro n
  induction n with
  | zero =>
    intro m s h _
    have : s = [] := List.length_eq_zero_iff.1 (by omega)
    subst this
    cases m <;> rfl
  | succ n ih =>
    intro m s h1 h2
    cases s with
    | nil => cases m <;> rfl
    | cons c t =>
      cases m with
      | zero => simp at h2
      | succ m =>
        have hl : 0 < old.length := List.length_pos_iff.2 ho
        rw [replaceFrom, replaceFrom]
        simp only [List.length_cons] at h1 h2
        split
        · rw [ih m _ (by simp only [List.length_drop, List.length_cons]; omega) (by simp only [List.length_drop, List.length_cons]; omega)]
        · rw [ih m t (by omega) (by omega)]

theorem replaceAll_nil (old new : Str) (ho : old ≠ []) : replaceAll old new [] = [] := by
  unfold replaceAll; rw [if_neg ho]; rfl

/-- at an occurrence -/
theorem replaceAll_hit (old new s : Str) (ho : old ≠ []) : replaceAll old new (old ++ s) = new ++ replaceAll old new s := by
  unfold replaceAll
  rw [if_neg ho, if_neg ho]
  cases old with
  | nil => exact absurd rfl ho
  | cons c o =>
    rw [List.cons_append, List.length_cons, replaceFrom, if_pos (by rw [List.isPrefixOf_iff_prefix]; exact List.prefix_append (c :: o) s)]
    have : List.drop (c :: o).length (c :: (o ++ s)) = s := by rw [← List.cons_append]; exact List.drop_left
    rw [this]
    congr 1
    exact replaceFrom_fuel _ _ ho _ _ _ (by simp) (le_refl _)

/-- elsewhere -/
theorem replaceAll_miss (old new : Str) (c : Char) (t : Str) (ho : old ≠ []) (h : ¬ old <+: c :: t) : replaceAll old new (c :: t) = c :: replaceAll old new t := by
  unfold replaceAll
  rw [if_neg ho, if_neg ho, List.length_cons, replaceFrom, if_neg (by rw [List.isPrefixOf_iff_prefix]; exact h)]

theorem replaceAll_none (old new s : Str) (ho : old ≠ []) (h : ¬ Contains s old) : replaceAll old new s = s := by
  induction s with
  | nil => exact replaceAll_nil old new ho
  | cons c t ih =>
    rw [replaceAll_miss old new c t ho (fun q => h q.isInfix), ih (fun q => h (List.IsInfix.trans q (List.suffix_cons c t).isInfix))]

/-- what is searched for has no line end: the lines are treated one by one -/
theorem replaceAll_line (old new : Str) (ho : old ≠ []) (hn : '\n' ∉ old) : ∀ (n : Nat) (l s : Str), l.length ≤ n →
    replaceAll old new (l ++ '\n' :: s) = replaceAll old new l ++ '\n' :: replaceAll old new s := by
  intro n
  induction n with
  | zero =>
    intro l s hl
    have : l = [] := List.length_eq_zero_iff.1 (by omega)
    subst this
    rw [List.nil_append, replaceAll_nil old new ho, List.nil_append]
    apply replaceAll_miss _ _ _ _ ho
    intro q
    cases old with
    | nil => exact ho rfl
    | cons c o =>
      obtain ⟨q1, -⟩ := List.cons_prefix_cons.1 q
      exact hn (by rw [q1]; simp)
  | succ n ih =>
    intro l s hl
    by_cases hp : old <+: l ++ '\n' :: s
    · have hq : old <+: l := by
        rcases List.prefix_or_prefix_of_prefix hp (List.prefix_append l ('\n' :: s)) with h | h
        · exact h
        · obtain ⟨r, hr⟩ := h
          rw [← hr] at hp ⊢
          rw [List.prefix_append_right_inj] at hp
          cases r with
          | nil => simp
          | cons c r =>
            obtain ⟨q1, -⟩ := List.cons_prefix_cons.1 hp
            exact absurd (by rw [← hr, q1]; simp) hn
      obtain ⟨r, rfl⟩ := hq
      have : 0 < old.length := List.length_pos_iff.2 ho
      rw [List.append_assoc, replaceAll_hit _ _ _ ho, replaceAll_hit _ _ _ ho, ih r s (by simp only [List.length_append] at hl; omega), List.append_assoc]
    · cases l with
      | nil =>
        rw [List.nil_append, replaceAll_nil old new ho, List.nil_append]
        rw [List.nil_append] at hp
        exact replaceAll_miss _ _ _ _ ho hp
      | cons c t =>
        rw [List.cons_append, replaceAll_miss _ _ _ _ ho (by rw [List.cons_append] at hp; exact hp), ih t s (by simp only [List.length_cons] at hl; omega),
          replaceAll_miss _ _ _ _ ho (fun q => hp (q.trans (List.prefix_append (c :: t) ('\n' :: s))))]
        rfl

theorem replaceAll_first (old new : Str) (ho : old ≠ []) : ∀ (a s : Str), (∀ i, i < a.length → ¬ old <+: (a ++ old).drop i) → replaceAll old new (a ++ old ++ s) = a ++ new ++ replaceAll old new s := by
  intro a
  induction a with
  | nil => intro s _; exact replaceAll_hit old new s ho
  | cons c t ih =>
    intro s h
    rw [List.cons_append, List.cons_append, replaceAll_miss _ _ _ _ ho, ih s (fun i hi => h (i + 1) (by simp only [List.length_cons]; omega))]
    · rfl
    · intro q
      have h0 := h 0 (by simp)
      rw [List.drop_zero] at h0
      exact h0 (List.prefix_of_prefix_length_le q (List.prefix_append (c :: t ++ old) s) (by simp; omega))

theorem first_occurrence (old : Str) : ∀ s : Str, Contains s old → ∃ a r, s = a ++ old ++ r ∧ ∀ i, i < a.length → ¬ old <+: (a ++ old).drop i := by
  intro s
  induction s with
  | nil =>
    intro h
    have : old = [] := List.eq_nil_of_infix_nil h
    subst this
    exact ⟨[], [], rfl, by simp⟩
  | cons c t ih =>
    intro h
    by_cases hp : old <+: c :: t
    · obtain ⟨r, hr⟩ := hp
      exact ⟨[], r, by rw [List.nil_append]; exact hr.symm, by simp⟩
    · rcases List.infix_cons_iff.1 h with h | h
      · exact absurd h hp
      · obtain ⟨a, r, h1, h2⟩ := ih h
        refine ⟨c :: a, r, by rw [h1]; rfl, ?_⟩
        intro i hi
        cases i with
        | zero =>
          intro q
          rw [List.drop_zero] at q
          apply hp
          rw [h1]
          exact q.trans (by rw [List.cons_append]; exact ⟨r, rfl⟩)
        | succ i => exact h2 i (by simpa using hi)

/-- **C161 (`replace`).** The exchange of texts is what it should be. -/
theorem C161_replace (old new s s' : Str) (ho : old ≠ []) : Exchanged old new s s' ↔ replaceAll old new s = s' := by
  constructor
  · intro h
    induction h with
    | done s h => exact replaceAll_none old new s ho h
    | next a s s' h _ ih => rw [replaceAll_first old new ho a s h, ih]
  · rintro rfl
    have : ∀ (n : Nat) (s : Str), s.length ≤ n → Exchanged old new s (replaceAll old new s) := by
      intro n
      induction n with
      | zero =>
        intro s hs
        have : s = [] := List.length_eq_zero_iff.1 (by omega)
        subst this
        rw [replaceAll_nil old new ho]
        exact .done [] (fun h => ho (List.eq_nil_of_infix_nil h))
      | succ n ih =>
        intro s hs
        by_cases hc : Contains s old
        · obtain ⟨a, r, rfl, h⟩ := first_occurrence old s hc
          rw [replaceAll_first old new ho a r h]
          have : 0 < old.length := List.length_pos_iff.2 ho
          exact .next a r _ h (ih r (by simp only [List.length_append] at hs; omega))
        · rw [replaceAll_none old new s ho hc]
          exact .done s hc
    exact this _ s (le_refl _)

example : Exchanged "ab".toList "x".toList "aababb".toList "axxb".toList := (C161_replace _ _ _ _ (by decide)).2 (by decide +kernel)

/-! ## `setup.py` -/

theorem indexOf_first (p : Str) (hp : p ≠ []) : ∀ (a s : Str), (∀ i, i < a.length → ¬ p <+: (a ++ p).drop i) → indexOf p (a ++ p ++ s) = .ok a.length := by
  intro a
  induction a with
  | nil =>
    intro s _
    cases p with
    | nil => exact absurd rfl hp
    | cons c o =>
      rw [List.nil_append, List.cons_append, indexOf, if_pos (by rw [List.isPrefixOf_iff_prefix]; exact List.prefix_append (c :: o) s)]
      rfl
  | cons c t ih =>
    intro s h
    rw [List.cons_append, List.cons_append, indexOf, if_neg, ih s (fun i hi => h (i + 1) (by simp only [List.length_cons]; omega))]
    · rfl
    · rw [List.isPrefixOf_iff_prefix]
      intro q
      have h0 := h 0 (by simp)
      rw [List.drop_zero] at h0
      exact h0 (List.prefix_of_prefix_length_le q (List.prefix_append (c :: t ++ p) s) (by simp; omega))

theorem indexOf_quote (v s : Str) (h : '\'' ∉ v) : indexOf ['\''] (v ++ '\'' :: s) = .ok v.length := by
  have := indexOf_first ['\''] (by simp) v s (by
    intro i hi q
    rw [List.drop_append_of_le_length hi.le] at q
    cases hd : v.drop i with
    | nil => rw [List.drop_eq_nil_iff] at hd; omega
    | cons c r =>
      rw [hd] at q
      obtain ⟨q1, -⟩ := List.cons_prefix_cons.1 q
      exact h (List.mem_of_mem_drop (i := i) (by rw [hd, q1]; simp)))
  rwa [List.append_assoc] at this

theorem indexOf_error (p : Str) (hp : p ≠ []) : ∀ s : Str, (∃ e, indexOf p s = .error e) ↔ ¬ Contains s p := by
  intro s
  induction s with
  | nil =>
    rw [indexOf, if_neg hp]
    exact ⟨fun _ h => hp (List.eq_nil_of_infix_nil h), fun _ => ⟨_, rfl⟩⟩
  | cons c t ih =>
    rw [indexOf]
    split
    · next h =>
      rw [List.isPrefixOf_iff_prefix] at h
      exact ⟨fun ⟨e, he⟩ => (by cases he), fun hn => absurd h.isInfix hn⟩
    · next h =>
      rw [List.isPrefixOf_iff_prefix] at h
      have : Contains (c :: t) p ↔ Contains t p := by
        unfold Contains
        rw [List.infix_cons_iff]
        exact ⟨fun q => q.resolve_left h, Or.inr⟩
      rw [this, ← ih]
      cases indexOf p t with
      | error e => exact ⟨fun _ => ⟨e, rfl⟩, fun _ => ⟨e, rfl⟩⟩
      | ok k => exact ⟨fun ⟨e, he⟩ => (by cases he), fun ⟨e, he⟩ => (by cases he)⟩

/-- **C161 (`setup.py`).** The version that `setup.py` declares first is exchanged for the new one, and nothing else in it. -/
theorem C161_setup (v w a b : Str) (hv : '\'' ∉ v) (ha : SetupOk a) : setupText w (setupAt v a b) = .ok (v, setupAt w a b) := by
  unfold setupAt setupText
  have h1 := indexOf_first "version='".toList (by decide) a (v ++ '\'' :: b) ha
  have e : a ++ "version='".toList ++ v ++ ['\''] ++ b = a ++ "version='".toList ++ (v ++ '\'' :: b) := by simp
  have hd : (a ++ "version='".toList ++ (v ++ '\'' :: b)).drop (a.length + 9) = v ++ '\'' :: b := by
    have : a.length + 9 = (a ++ "version='".toList).length := by rw [List.length_append]; rfl
    rw [this, List.drop_left]
  have ht : (a ++ "version='".toList ++ (v ++ '\'' :: b)).take (a.length + 9) = a ++ "version='".toList := by
    have : a.length + 9 = (a ++ "version='".toList).length := by rw [List.length_append]; rfl
    rw [this, List.take_left]
  rw [e, h1]
  simp only [bind, Except.bind, pure, Except.pure]
  rw [hd, indexOf_quote v b hv]
  dsimp only
  rw [ht, ← List.drop_drop, hd, List.take_left, List.drop_left]
  simp

/-- **C161 (`setup.py`).** Without a version the update raises before anything is written. -/
theorem C161_refused (w : Str) (t : Str × List File) (h : ¬ Contains t.1 "version='".toList) : ∃ e, update w t = .error e := by
  obtain ⟨e, he⟩ := (indexOf_error "version='".toList (by decide) t.1).2 h
  exact ⟨e, by unfold update setupText; rw [he]; rfl⟩

example : SetupOk "setup(name='auxi',\n      ".toList ∧ setupText "0.3.7".toList (setupAt "0.3.6".toList "setup(name='auxi',\n      ".toList ",\n".toList) =
    .ok ("0.3.6".toList, "setup(name='auxi',\n      version='0.3.7',\n".toList) := by
  refine ⟨?_, by decide +kernel⟩
  intro i hi
  have : ∀ i < 25, ¬ "version='".toList <+: ("setup(name='auxi',\n      ".toList ++ "version='".toList).drop i := by decide +kernel
  exact this i (by simpa using hi)

/-! ## Lines -/

/-- the lines of a text, the version of a line depending on its keyword -/
def mixed (f : Str → Str) (ls : List Line) : Str := ls.flatMap (fun l => (match l with | .declares k => l.text (f k) | .other s => s) ++ ['\n'])

theorem mixed_const (v : Str) (ls : List Line) : mixed (fun _ => v) ls = textOf v ls := by
  unfold mixed textOf
  congr 1
  funext l
  cases l <;> rfl

/-- a text is cut at its first quote in one way only -/
theorem cut : ∀ {a b x y : Str}, '\'' ∉ a → '\'' ∉ b → a ++ '\'' :: x = b ++ '\'' :: y → a = b ∧ x = y := by
  intro a
  induction a with
  | nil =>
    intro b x y _ hb h
    cases b with
    | nil => simpa using h
    | cons c b =>
      rw [List.nil_append, List.cons_append, List.cons.injEq] at h
      exact absurd (by rw [h.1]; simp) hb
  | cons d a ih =>
    intro b x y ha hb h
    cases b with
    | nil =>
      rw [List.nil_append, List.cons_append, List.cons.injEq] at h
      exact absurd (by rw [h.1]; simp) ha
    | cons c b =>
      rw [List.cons_append, List.cons_append, List.cons.injEq] at h
      obtain ⟨h1, h2⟩ := ih (fun q => ha (by simp [q])) (fun q => hb (by simp [q])) h.2
      exact ⟨by rw [h.1, h1], h2⟩

/-- a text with two quotes, the second at its end, occurs in another one only at the end of what is before the quote -/
theorem quoted_infix {A B C D : Str} (hA : '\'' ∉ A) (hB : '\'' ∉ B) (hC : '\'' ∉ C) (hD : '\'' ∉ D) (h : A ++ '\'' :: B ++ ['\''] <:+: C ++ '\'' :: D ++ ['\'']) : A <:+ C := by
  obtain ⟨x, y, e⟩ := h
  have hc := congrArg (List.count '\'') e
  simp only [List.count_append, List.count_cons, List.count_nil, List.count_eq_zero.2 hA, List.count_eq_zero.2 hB, List.count_eq_zero.2 hC, List.count_eq_zero.2 hD] at hc
  have hx : '\'' ∉ x := List.count_eq_zero.1 (by simp at hc; omega)
  have hxA : '\'' ∉ x ++ A := by simp [hx, hA]
  have e' : (x ++ A) ++ '\'' :: (B ++ ['\''] ++ y) = C ++ '\'' :: (D ++ ['\'']) := by simpa using e
  exact ⟨x, (cut hxA hC e').1⟩

theorem replaceAll_mixed (old new : Str) (ho : old ≠ []) (hn : '\n' ∉ old) (f : Str → Str) (ls : List Line) (g : Line → Str)
    (h : ∀ l ∈ ls, replaceAll old new (match l with | .declares k => l.text (f k) | .other s => s) = g l) : replaceAll old new (mixed f ls) = ls.flatMap (fun l => g l ++ ['\n']) := by
  unfold mixed
  induction ls with
  | nil => exact replaceAll_nil old new ho
  | cons l ls ih =>
    rw [List.flatMap_cons, List.flatMap_cons, List.append_assoc, List.append_assoc, List.singleton_append, List.singleton_append,
      replaceAll_line old new ho hn _ _ _ (le_refl _), h l (by simp), ih (fun l hl => h l (by simp [hl]))]

/-- the keyword as what is before its quote and what is between the quote and the version -/
structure Keyword (k A B : Str) : Prop where
  eq : k = A ++ '\'' :: B
  hA : '\'' ∉ A
  hB : '\'' ∉ B
  nl : '\n' ∉ k

/-- one keyword of several -/
theorem replace_keyword (keys : List Str) (K : Str → Str × Str) (hk : ∀ k ∈ keys, Keyword k (K k).1 (K k).2) (hs : ∀ k ∈ keys, ∀ k' ∈ keys, (K k).1 <:+ (K k').1 → k = k')
    (k : Str) (hkk : k ∈ keys) (v w : Str) (hv : Plain v) (f : Str → Str) (hf : f k = v) (hp : ∀ k' ∈ keys, '\'' ∉ f k') (ls : List Line) (hl : LinesOk keys ls) :
    replaceAll (k ++ v ++ ['\'']) (k ++ w ++ ['\'']) (mixed f ls) = mixed (fun k' => if k' = k then w else f k') ls := by
  have ho : k ++ v ++ ['\''] ≠ [] := by simp
  have hn : '\n' ∉ k ++ v ++ ['\''] := by simp [(hk k hkk).nl, hv.2.2]
  rw [replaceAll_mixed _ _ ho hn f ls (fun l => match l with | .declares k' => l.text (if k' = k then w else f k') | .other s => s)]
  · unfold mixed
    congr 1
  · intro l hm
    have hl' := hl l hm
    cases l with
    | declares k' =>
      dsimp only at hl' ⊢
      by_cases e : k' = k
      · subst e
        rw [if_pos rfl, hf]
        have := replaceAll_hit (k' ++ v ++ ['\'']) (k' ++ w ++ ['\'']) [] ho
        rw [List.append_nil, replaceAll_nil _ _ ho, List.append_nil] at this
        exact this
      · rw [if_neg e]
        apply replaceAll_none _ _ _ ho
        intro hc
        apply e
        unfold Contains Line.text at hc
        have q := hk k hkk
        have q' := hk k' hl'
        have hu := hp k' hl'
        generalize f k' = u at hc hu
        refine (hs k hkk k' hl' (quoted_infix (B := (K k).2 ++ v) (D := (K k').2 ++ u) q.hA ?_ q'.hA ?_ ?_)).symm
        · simp [q.hB, hv.2.1]
        · simp [q'.hB, hu]
        · rw [q.eq, q'.eq] at hc
          simpa using hc
    | other s =>
      dsimp only at hl' ⊢
      apply replaceAll_none _ _ _ ho
      intro hc
      exact hl'.2 k hkk (List.IsInfix.trans (by rw [List.append_assoc]; exact (List.prefix_append k _).isInfix) hc)

theorem auxi_text (v w : Str) (hv : Plain v) (ls : List Line) (hl : LinesOk [auxiKey] ls) : auxiText v w (textOf v ls) = textOf w ls := by
  have := replace_keyword [auxiKey] (fun _ => ("__version__ = ".toList, [])) (by
      intro k hk
      rw [List.mem_singleton.1 hk]
      exact ⟨by decide, by decide, by decide, by decide⟩) (by
      intro k hk k' hk' _
      rw [List.mem_singleton.1 hk, List.mem_singleton.1 hk']) auxiKey (by simp) v w hv (fun _ => v) rfl (fun _ _ => hv.2.1) ls hl
  rw [mixed_const] at this
  show replaceAll (auxiKey ++ v ++ ['\'']) (auxiKey ++ w ++ ['\'']) _ = _
  rw [this, ← mixed_const]
  unfold mixed
  apply List.flatMap_congr
  intro l hm
  have hl' := hl l hm
  cases l with
  | declares k => dsimp only at hl' ⊢; rw [if_pos (List.mem_singleton.1 hl')]
  | other s => rfl

/-- what is before and after the quote of a keyword of the documentation -/
def docParts (k : Str) : Str × Str := if k = "copyright = '2015-2016, ".toList then ("copyright = ".toList, "2015-2016, ".toList) else (k.dropLast, [])

theorem doc_text (v w : Str) (hv : Plain v) (hw : Plain w) (ls : List Line) (hl : LinesOk docKeys ls) : docText v w (textOf v ls) = textOf w ls := by
  have hk : ∀ k ∈ docKeys, Keyword k (docParts k).1 (docParts k).2 := by
    intro k hk
    simp only [docKeys, List.mem_cons, List.not_mem_nil, or_false] at hk
    rcases hk with rfl | rfl | rfl <;> exact ⟨by decide +kernel, by decide +kernel, by decide +kernel, by decide +kernel⟩
  have hs : ∀ k ∈ docKeys, ∀ k' ∈ docKeys, (docParts k).1 <:+ (docParts k').1 → k = k' := by decide +kernel
  unfold docText
  dsimp only
  have step := fun k hkk f hf hp => replace_keyword docKeys docParts hk hs k hkk v w hv f hf hp ls hl
  rw [← mixed_const v ls, step "copyright = '2015-2016, ".toList (by decide +kernel) (fun _ => v) rfl (fun _ _ => hv.2.1)]
  rw [step "version = '".toList (by decide +kernel) _ (if_neg (by decide +kernel)) (fun k' _ => by split; exacts [hw.2.1, hv.2.1])]
  rw [step "release = '".toList (by decide +kernel) _ (by rw [if_neg (by decide +kernel), if_neg (by decide +kernel)]) (fun k' _ => by split; exacts [hw.2.1, by split; exacts [hw.2.1, hv.2.1]])]
  rw [← mixed_const w ls]
  unfold mixed
  apply List.flatMap_congr
  intro l hm
  have hl' := hl l hm
  cases l with
  | declares k =>
    dsimp only at hl' ⊢
    have hv : ((if k = "release = '".toList then w else if k = "version = '".toList then w else if k = "copyright = '2015-2016, ".toList then w else v) : Str) = w := by
      rcases List.mem_cons.1 hl' with h | h
      · rw [h]; exact (if_neg (by decide +kernel)).trans ((if_neg (by decide +kernel)).trans (if_pos rfl))
      · rcases List.mem_cons.1 h with h | h
        · rw [h]; exact (if_neg (by decide +kernel)).trans (if_pos rfl)
        · rw [List.mem_singleton.1 h]; exact if_pos rfl
    exact congrArg (fun x => Line.text x (.declares k) ++ ['\n']) hv
  | other s => rfl

/-! ## Trees -/

/-- **C161 (one update).** In a tree in which everything declares version `v`, everything declares version `w` after the update, and nothing else is changed. -/
theorem C161_update (v w a b : Str) (ts : List Template) (hv : Plain v) (hw : Plain w) (ha : SetupOk a) (ht : ∀ t ∈ ts, t.Ok) :
    update w (setupAt v a b, ts.map (Template.at v)) = .ok (setupAt w a b, ts.map (Template.at w)) := by
  unfold update
  rw [C161_setup v w a b hv.2.1 ha]
  simp only [bind, Except.bind, pure, Except.pure, List.map_map]
  congr 2
  apply List.map_congr_left
  intro t hm
  have h := ht t hm
  obtain ⟨pl, nm, ls⟩ := t
  unfold Template.Ok at h
  simp only [Function.comp, Template.at]
  dsimp only at h
  congr 1
  unfold fileText
  cases pl with
  | auxi =>
    dsimp only at h ⊢
    rw [if_pos (by rw [List.isSuffixOf_iff_suffix]; exact h.1), auxi_text v w hv _ h.2]
  | doc =>
    dsimp only at h ⊢
    rw [if_pos (by rw [List.isSuffixOf_iff_suffix]; exact h.1), doc_text v w hv hw _ h.2]
  | setup => exact h.elim
  | scripts => exact h.elim
  | elsewhere => exact h.elim

/-- **C161 (any number of updates).** The same after any number of updates: everything declares the version of the last one. -/
theorem C161_history (vs : List Str) (hvs : ∀ v ∈ vs, Plain v) (a b : Str) (ts : List Template) (ha : SetupOk a) (ht : ∀ t ∈ ts, t.Ok) (v : Str) (hv : Plain v) :
    updates vs (setupAt v a b, ts.map (Template.at v)) = .ok (setupAt (vs.getLastD v) a b, ts.map (Template.at (vs.getLastD v))) := by
  induction vs generalizing v with
  | nil => rfl
  | cons w vs ih =>
    rw [updates, C161_update v w a b ts hv (hvs w (by simp)) ha ht]
    dsimp only
    rw [ih (fun x hx => hvs x (by simp [hx])) w (hvs w (by simp))]
    cases vs <;> rfl

/-- **C161 (back).** An update and the update back restore the tree. -/
theorem C161_back (v w a b : Str) (ts : List Template) (hv : Plain v) (hw : Plain w) (ha : SetupOk a) (ht : ∀ t ∈ ts, t.Ok) :
    updates [w, v] (setupAt v a b, ts.map (Template.at v)) = .ok (setupAt v a b, ts.map (Template.at v)) :=
  C161_history [w, v] (by intro u hu; rcases List.mem_cons.1 hu with rfl | hu; exacts [hw, by rw [List.mem_singleton.1 hu]; exact hv]) a b ts ha ht v hv

/-- **C161 (left behind).** A module that does not declare the current version is not updated, now or later, as long as the version it declares does not become the current one; whatever else is in the tree. -/
theorem C161_left_behind (vs : List Str) (hvs : ∀ v ∈ vs, Plain v) (a b : Str) (ha : SetupOk a) (v : Str) (hv : Plain v) (fs : List File) (i : Nat) (f : File) (hf : fs[i]? = some f) (hp : f.place = .auxi)
    (hn : ∀ u ∈ v :: vs, ¬ Contains f.text (auxiKey ++ u ++ ['\''])) : ∃ fs', updates vs (setupAt v a b, fs) = .ok (setupAt (vs.getLastD v) a b, fs') ∧ fs'[i]? = some f := by
  induction vs generalizing v fs with
  | nil => exact ⟨fs, rfl, hf⟩
  | cons w vs ih =>
    have h1 : update w (setupAt v a b, fs) = .ok (setupAt w a b, fs.map (fun f => { f with text := fileText v w f })) := by
      unfold update
      rw [C161_setup v w a b hv.2.1 ha]
      rfl
    have h2 : fileText v w f = f.text := by
      unfold fileText
      rw [hp]
      dsimp only
      split
      · exact replaceAll_none _ _ _ (by simp) (hn v (by simp))
      · rfl
    obtain ⟨fs', e1, e2⟩ := ih (fun x hx => hvs x (by simp [hx])) w (hvs w (by simp)) (fs.map (fun f => { f with text := fileText v w f })) (by
      rw [List.getElem?_map, hf]
      simp only [Option.map_some, h2]) (fun u hu => hn u (by simp only [List.mem_cons] at hu ⊢; tauto))
    refine ⟨fs', ?_, e2⟩
    rw [updates, h1]
    dsimp only
    rw [e1]
    cases vs <;> rfl

/-- **C161 (violated).** So the modules of auxi do not all report the version of the release: those that put it in double quotes (`pressuredrop.py`, `gases.py`, `idealgas.py`) keep it for ever, and those left at an earlier version
(`coals.py` at 0.3.3, `thermochemistry.py` at 0.3.1) keep it whatever updates follow to other versions than theirs. -/
theorem C161_shipped_violated (vs : List Str) (hvs : ∀ v ∈ vs, Plain v) (h3 : "0.3.3".toList ∉ vs) (h1 : "0.3.1".toList ∉ vs) (a b : Str) (ha : SetupOk a) :
    ∃ fs', updates vs (setupAt "0.3.6".toList a b, [⟨.auxi, "gases.py".toList, "__version__ = \"0.3.6\"\n".toList⟩, ⟨.auxi, "coals.py".toList, "__version__ = '0.3.3'\n".toList⟩, ⟨.auxi, "thermochemistry.py".toList, "__version__ = '0.3.1'\n".toList⟩]) =
      .ok (setupAt (vs.getLastD "0.3.6".toList) a b, fs') ∧
      fs'[0]? = some ⟨.auxi, "gases.py".toList, "__version__ = \"0.3.6\"\n".toList⟩ ∧ fs'[1]? = some ⟨.auxi, "coals.py".toList, "__version__ = '0.3.3'\n".toList⟩ ∧
      fs'[2]? = some ⟨.auxi, "thermochemistry.py".toList, "__version__ = '0.3.1'\n".toList⟩ := by
  have hp : Plain "0.3.6".toList := ⟨by decide, by decide, by decide⟩
  have key : ∀ x u : Str, '\'' ∉ x → '\'' ∉ u → u ≠ x → '\n' ∉ u → ¬ Contains ("__version__ = '".toList ++ x ++ "'\n".toList) (auxiKey ++ u ++ ['\'']) := by
    intro x u hx hu hne hn hc
    obtain ⟨p, q, e⟩ := hc
    have hcount := congrArg (List.count '\'') e
    have ek : auxiKey = "__version__ = ".toList ++ ['\''] := by decide
    have ek' : "__version__ = '".toList = "__version__ = ".toList ++ ['\''] := by decide
    have en : "'\n".toList = ['\'', '\n'] := by decide
    rw [ek, ek', en] at e hcount
    have hA : '\'' ∉ "__version__ = ".toList := by decide
    generalize "__version__ = ".toList = A at e hcount hA
    simp only [List.count_append, List.count_cons, List.count_nil, List.count_eq_zero.2 hx, List.count_eq_zero.2 hu, List.count_eq_zero.2 hA] at hcount
    have hp : '\'' ∉ p := List.count_eq_zero.1 (by simp at hcount; omega)
    have e' : (p ++ A) ++ '\'' :: (u ++ '\'' :: q) = A ++ '\'' :: (x ++ '\'' :: ['\n']) := by simpa using e
    have h1 := cut (by simp [hp, hA]) hA e'
    exact hne (cut hu hx h1.2).1
  obtain ⟨f0, a0, b0⟩ := C161_left_behind vs hvs a b ha _ hp [⟨.auxi, "gases.py".toList, "__version__ = \"0.3.6\"\n".toList⟩, ⟨.auxi, "coals.py".toList, "__version__ = '0.3.3'\n".toList⟩, ⟨.auxi, "thermochemistry.py".toList, "__version__ = '0.3.1'\n".toList⟩] 0 _ rfl rfl (by
    intro u _ hc
    have hq : '\'' ∈ auxiKey ++ u ++ ['\''] := by simp
    have : '\'' ∈ "__version__ = \"0.3.6\"\n".toList := hc.subset hq
    exact absurd this (by decide))
  obtain ⟨f1, a1, b1⟩ := C161_left_behind vs hvs a b ha _ hp [⟨.auxi, "gases.py".toList, "__version__ = \"0.3.6\"\n".toList⟩, ⟨.auxi, "coals.py".toList, "__version__ = '0.3.3'\n".toList⟩, ⟨.auxi, "thermochemistry.py".toList, "__version__ = '0.3.1'\n".toList⟩] 1 _ rfl rfl (by
    intro u hu
    refine key "0.3.3".toList u (by decide) ?_ ?_ ?_
    · rcases List.mem_cons.1 hu with rfl | hu; exacts [hp.2.1, (hvs u hu).2.1]
    · rintro rfl
      rcases List.mem_cons.1 hu with h | h
      · exact absurd h (by decide)
      · exact h3 h
    · rcases List.mem_cons.1 hu with rfl | hu; exacts [hp.2.2, (hvs u hu).2.2])
  obtain ⟨f2, a2, b2⟩ := C161_left_behind vs hvs a b ha _ hp [⟨.auxi, "gases.py".toList, "__version__ = \"0.3.6\"\n".toList⟩, ⟨.auxi, "coals.py".toList, "__version__ = '0.3.3'\n".toList⟩, ⟨.auxi, "thermochemistry.py".toList, "__version__ = '0.3.1'\n".toList⟩] 2 _ rfl rfl (by
    intro u hu
    refine key "0.3.1".toList u (by decide) ?_ ?_ ?_
    · rcases List.mem_cons.1 hu with rfl | hu; exacts [hp.2.1, (hvs u hu).2.1]
    · rintro rfl
      rcases List.mem_cons.1 hu with h | h
      · exact absurd h (by decide)
      · exact h1 h
    · rcases List.mem_cons.1 hu with rfl | hu; exacts [hp.2.2, (hvs u hu).2.2])
  rw [a0] at a1 a2
  simp only [Except.ok.injEq, Prod.mk.injEq, true_and] at a1 a2
  subst a1 a2
  exact ⟨f0, a0, b0, b1, b2⟩

/-- a module and the settings of the documentation, as shipped -/
def shipped : List Template :=
  [⟨.auxi, "psd.py".toList, [.other "# -*- coding: utf-8 -*-".toList, .declares auxiKey, .other "__license__ = 'LGPL v3'".toList]⟩,
   ⟨.doc, "conf.py".toList, [.declares "copyright = '2015-2016, ".toList, .declares "version = '".toList, .other "".toList, .declares "release = '".toList]⟩]

theorem contains_dec (s p : Str) : Contains s p ↔ s.tails.any (fun t => p.isPrefixOf t) = true := by
  unfold Contains
  rw [List.infix_iff_prefix_suffix, List.any_eq_true]
  constructor
  · rintro ⟨t, h1, h2⟩
    exact ⟨t, (List.mem_tails _ _).2 h2, List.isPrefixOf_iff_prefix.2 h1⟩
  · rintro ⟨t, h1, h2⟩
    exact ⟨t, List.isPrefixOf_iff_prefix.1 h2, (List.mem_tails _ _).1 h1⟩

theorem shipped_ok : ∀ t ∈ shipped, t.Ok := by
  intro t ht
  simp only [shipped, List.mem_cons, List.not_mem_nil, or_false] at ht
  rcases ht with rfl | rfl
  · refine ⟨by decide +kernel, ?_⟩
    intro l hl
    simp only [List.mem_cons, List.not_mem_nil, or_false] at hl
    rcases hl with rfl | rfl | rfl
    · exact ⟨by decide +kernel, by intro k hk; rw [contains_dec]; revert k; decide +kernel⟩
    · exact List.mem_singleton.2 rfl
    · exact ⟨by decide +kernel, by intro k hk; rw [contains_dec]; revert k; decide +kernel⟩
  · refine ⟨by decide +kernel, ?_⟩
    intro l hl
    simp only [List.mem_cons, List.not_mem_nil, or_false] at hl
    rcases hl with rfl | rfl | rfl | rfl
    · show _ ∈ docKeys; decide +kernel
    · show _ ∈ docKeys; decide +kernel
    · exact ⟨by decide +kernel, by intro k hk; rw [contains_dec]; revert k; decide +kernel⟩
    · show _ ∈ docKeys; decide +kernel

example : updates ["0.3.7".toList, "0.4.0".toList] (setupAt "0.3.6".toList "setup(name='auxi', ".toList ",\n".toList, shipped.map (Template.at "0.3.6".toList)) =
    .ok ("setup(name='auxi', version='0.4.0',\n".toList,
      [⟨.auxi, "psd.py".toList, "# -*- coding: utf-8 -*-\n__version__ = '0.4.0'\n__license__ = 'LGPL v3'\n".toList⟩,
       ⟨.doc, "conf.py".toList, "copyright = '2015-2016, 0.4.0'\nversion = '0.4.0'\n\nrelease = '0.4.0'\n".toList⟩]) := by
  have h := C161_history ["0.3.7".toList, "0.4.0".toList] (by
    intro v hv
    rcases List.mem_cons.1 hv with rfl | hv
    · exact ⟨by decide, by decide, by decide⟩
    · rw [List.mem_singleton.1 hv]; exact ⟨by decide, by decide, by decide⟩) "setup(name='auxi', ".toList ",\n".toList shipped (by
    intro i hi
    have : ∀ i < 19, ¬ "version='".toList <+: ("setup(name='auxi', ".toList ++ "version='".toList).drop i := by decide +kernel
    exact this i (by simpa using hi)) shipped_ok "0.3.6".toList ⟨by decide, by decide, by decide⟩
  rw [h]
  decide +kernel

/-- the text of a script -/
theorem script_text (w : Str) (c : Char) (r : Str) (ps : List Str) (h : ∀ p ∈ ps, c ∉ p) : replaceAll (c :: r) w (joined (c :: r) ps) = joined w ps := by
  have first : ∀ p s : Str, c ∉ p → replaceAll (c :: r) w (p ++ (c :: r) ++ s) = p ++ w ++ replaceAll (c :: r) w s := by
    intro p s hp
    apply replaceAll_first _ _ (by simp)
    intro i hi q
    rw [List.drop_append_of_le_length hi.le] at q
    cases hd : p.drop i with
    | nil => rw [List.drop_eq_nil_iff] at hd; omega
    | cons d t =>
      rw [hd] at q
      obtain ⟨q1, -⟩ := List.cons_prefix_cons.1 q
      exact hp (List.mem_of_mem_drop (i := i) (by rw [hd, q1]; simp))
  induction ps with
  | nil => exact replaceAll_nil _ _ (by simp)
  | cons p ps ih =>
    cases ps with
    | nil =>
      apply replaceAll_none _ _ _ (by simp)
      intro hc
      exact h p (by simp) (hc.subset (by simp))
    | cons p' ps =>
      show replaceAll (c :: r) w (p ++ (c :: r) ++ joined (c :: r) (p' :: ps)) = p ++ w ++ joined w (p' :: ps)
      rw [first _ _ (h p (by simp)), ih (fun q hq => h q (by simp [hq]))]

theorem script_step (v w : Str) (f : Str × List Str) (h : ScriptOk v f) : { scriptAt v f with text := fileText v w (scriptAt v f) } = scriptAt w f := by
  obtain ⟨h1, h2, c, r, rfl, h3⟩ := h
  unfold scriptAt fileText
  dsimp only
  rw [if_pos ⟨by rw [List.isSuffixOf_iff_suffix]; exact h1, h2⟩, script_text w c r f.2 h3]

/-- **C161 (whole trees).** Scripts too are brought to the version of the last update, by any number of updates, if the first characters of the versions occur in them only there. -/
theorem C161_tree (vs : List Str) (hvs : ∀ v ∈ vs, Plain v) (a b : Str) (ts : List Template) (fs : List (Str × List Str)) (ha : SetupOk a) (ht : ∀ t ∈ ts, t.Ok) (v : Str) (hv : Plain v)
    (hf : ∀ u ∈ v :: vs, ∀ f ∈ fs, ScriptOk u f) :
    updates vs (setupAt v a b, ts.map (Template.at v) ++ fs.map (scriptAt v)) = .ok (setupAt (vs.getLastD v) a b, ts.map (Template.at (vs.getLastD v)) ++ fs.map (scriptAt (vs.getLastD v))) := by
  induction vs generalizing v with
  | nil => rfl
  | cons w vs ih =>
    have h1 : update w (setupAt v a b, ts.map (Template.at v) ++ fs.map (scriptAt v)) = .ok (setupAt w a b, ts.map (Template.at w) ++ fs.map (scriptAt w)) := by
      have h0 := C161_update v w a b ts hv (hvs w (by simp)) ha ht
      unfold update at h0 ⊢
      rw [C161_setup v w a b hv.2.1 ha] at h0 ⊢
      simp only [bind, Except.bind, pure, Except.pure, Except.ok.injEq, Prod.mk.injEq, true_and] at h0 ⊢
      rw [List.map_append, h0, List.map_map]
      congr 1
      apply List.map_congr_left
      intro f hm
      exact script_step v w f (hf v (by simp) f hm)
    rw [updates, h1]
    dsimp only
    rw [ih (fun x hx => hvs x (by simp [hx])) w (hvs w (by simp)) (fun u hu => hf u (by simp only [List.mem_cons] at hu ⊢; tauto))]
    cases vs <;> rfl

/-- two lines of the shipped `build_and_deploy.sh`, over two updates -/
example : updates ["0.3.7".toList, "0.4.0".toList] (setupAt "0.3.6".toList [] [], [⟨.scripts, "build_and_deploy.sh".toList, "rm -r /usr/local/lib/python3.4/dist-packages/auxi-0.3.6-py3.4.egg\ncd auxi-0.3.6\n".toList⟩]) =
    .ok (setupAt "0.4.0".toList [] [], [⟨.scripts, "build_and_deploy.sh".toList, "rm -r /usr/local/lib/python3.4/dist-packages/auxi-0.4.0-py3.4.egg\ncd auxi-0.4.0\n".toList⟩]) := by
  have h := C161_tree ["0.3.7".toList, "0.4.0".toList] (by
    intro v hv
    rcases List.mem_cons.1 hv with rfl | hv
    · exact ⟨by decide, by decide, by decide⟩
    · rw [List.mem_singleton.1 hv]; exact ⟨by decide, by decide, by decide⟩) [] [] []
    [("build_and_deploy.sh".toList, ["rm -r /usr/local/lib/python3.4/dist-packages/auxi-".toList, "-py3.4.egg\ncd auxi-".toList, "\n".toList])] (by intro i hi; simp at hi) (by simp) "0.3.6".toList ⟨by decide, by decide, by decide⟩ (by
    intro u hu f hf
    rw [List.mem_singleton.1 hf]
    refine ⟨by decide +kernel, by decide +kernel, '0', u.tail, ?_, by decide +kernel⟩
    simp only [List.mem_cons, List.not_mem_nil, or_false] at hu
    rcases hu with rfl | rfl | rfl <;> decide +kernel)
  convert h using 1
  · exact congrArg _ (by decide +kernel)
  · exact congrArg _ (by decide +kernel)

/-- **C161 (scripts, violated).** In the shell scripts the text of the old version is exchanged wherever it stands: after an update from version 1.0 to 1.1 a script that uses another tool at version 11.0.4 asks for 11.1.4. -/
theorem C161_scripts_violated : ∃ (v w : Str) (f : File), Plain v ∧ Plain w ∧ f.place = .scripts ∧ ¬ Contains f.text ("auxi-".toList ++ v) ∧
    update w (setupAt v [] [], [f]) = .ok (setupAt w [] [], [{ f with text := "pip install tool==11.1.4\n".toList }]) ∧ f.text = "pip install tool==11.0.4\n".toList :=
  ⟨"1.0".toList, "1.1".toList, ⟨.scripts, "release.sh".toList, "pip install tool==11.0.4\n".toList⟩, ⟨by decide, by decide, by decide⟩, ⟨by decide, by decide, by decide⟩, rfl,
    by rw [contains_dec]; decide +kernel, by decide +kernel, rfl⟩

end Auxi.Version.Props
