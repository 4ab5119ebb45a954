import Verif.Spec.FactSage
import Verif.Proofs.FileFormat

/-! # Lemmas about the items of FactSage data lines -/
namespace Auxi.FactSage
open Auxi.FileFormat Auxi.FileFormat.Spec Auxi.FactSage.Spec

theorem replace_nil (o n : Str) : replace o n [] = [] := by rw [replace]

theorem replace_cons_neg {o n s : Str} {c : Char} (h : o.isPrefixOf (c :: s) = false) : replace o n (c :: s) = c :: replace o n s := by
  rw [replace, if_neg (by rw [h]; simp)]

/-- The pattern: a word between blanks. -/
def pat (w : Str) : Str := ' ' :: (w ++ [' '])

theorem replace_word {w n : Str} {v : Str} (hv : ∀ c ∈ v, c ≠ ' ') (s : Str) : replace (pat w) n (v ++ s) = v ++ replace (pat w) n s := by
  induction v with
  | nil => rfl
  | cons c v ih =>
    rw [List.cons_append, replace_cons_neg, ih (fun d hd => hv d (by simp [hd])), List.cons_append]
    have : c ≠ ' ' := hv c (by simp)
    unfold pat
    rw [List.isPrefixOf_cons_cons]
    simp [Ne.symm this]

/-- A blank not followed by the word and a blank stays. -/
theorem prefix_word {w v r : Str} (hw : ∀ c ∈ w, c ≠ ' ') (hv : ∀ c ∈ v, c ≠ ' ') (hne : v ≠ w) : (w ++ [' ']).isPrefixOf (v ++ ' ' :: r) = false := by
  rw [← Bool.not_eq_true, List.isPrefixOf_iff_prefix]
  rintro ⟨t, ht⟩
  refine hne ?_
  have e : ∀ {x y p q : Str}, (∀ c ∈ x, c ≠ ' ') → (∀ c ∈ y, c ≠ ' ') → x ++ ' ' :: p = y ++ ' ' :: q → x = y := by
    intro x
    induction x with
    | nil =>
      intro y p q _ hy h
      cases y with
      | nil => rfl
      | cons d y => simp only [List.nil_append, List.cons_append, List.cons.injEq] at h; exact absurd h.1.symm (hy d (by simp))
    | cons c x ih =>
      intro y p q hx hy h
      cases y with
      | nil => simp only [List.nil_append, List.cons_append, List.cons.injEq] at h; exact absurd h.1 (hx c (by simp))
      | cons d y =>
        simp only [List.cons_append, List.cons.injEq] at h
        rw [h.1, ih (fun c hc => hx c (by simp [hc])) (fun c hc => hy c (by simp [hc])) h.2]
  have : w ++ ' ' :: t = v ++ ' ' :: r := by rw [← ht]; simp
  exact (e hw hv this).symm

/-- No blank follows in a text without blanks. -/
theorem prefix_last {w v : Str} (hv : ∀ c ∈ v, c ≠ ' ') : (w ++ [' ']).isPrefixOf v = false := by
  rw [← Bool.not_eq_true, List.isPrefixOf_iff_prefix]
  intro h
  exact hv ' ' (h.subset (by simp)) rfl

theorem replace_blank {w n s : Str} (h : (w ++ [' ']).isPrefixOf s = false) : replace (pat w) n (' ' :: s) = ' ' :: replace (pat w) n s := by
  rw [replace_cons_neg]
  unfold pat
  rw [List.isPrefixOf_cons_cons]
  simp [h]

theorem prefix_blank {w : Str} (hw0 : w ≠ []) (hw : ∀ c ∈ w, c ≠ ' ') (s : Str) : (w ++ [' ']).isPrefixOf (' ' :: s) = false := by
  obtain ⟨c, t, rfl⟩ := List.exists_cons_of_ne_nil hw0
  rw [List.cons_append, List.isPrefixOf_cons_cons]
  simp [hw c (by simp)]

/-- A run of blanks before a text that does not continue the pattern stays. -/
theorem replace_run {w n s : Str} (hw0 : w ≠ []) (hw : ∀ c ∈ w, c ≠ ' ') (h : (w ++ [' ']).isPrefixOf s = false) :
    ∀ k, replace (pat w) n (List.replicate k ' ' ++ s) = List.replicate k ' ' ++ replace (pat w) n s
  | 0 => rfl
  | k + 1 => by
    rw [List.replicate_succ, List.cons_append, replace_blank, replace_run hw0 hw h k, List.cons_append]
    cases k with
    | zero => exact h
    | succ k => exact prefix_blank hw0 hw _

/-- The word between blanks is replaced. -/
theorem replace_hit {w n s : Str} (hw0 : w ≠ []) (hw : ∀ c ∈ w, c ≠ ' ') : ∀ k,
    replace (pat w) n (' ' :: List.replicate k ' ' ++ w ++ ' ' :: s) = List.replicate k ' ' ++ n ++ replace (pat w) n s
  | 0 => by
    change replace (pat w) n (' ' :: (w ++ ' ' :: s)) = n ++ replace (pat w) n s
    rw [replace]
    rw [if_pos]
    · congr 2
      change (w ++ ' ' :: s).drop ((w ++ [' ']).length) = s
      rw [show w ++ ' ' :: s = (w ++ [' ']) ++ s by simp, List.drop_left]
    · rw [List.isPrefixOf_iff_prefix]
      exact ⟨s, by simp [pat]⟩
  | k + 1 => by
    have e : ' ' :: List.replicate (k + 1) ' ' ++ w ++ ' ' :: s = ' ' :: (' ' :: List.replicate k ' ' ++ w ++ ' ' :: s) := by simp [List.replicate_succ]
    rw [e, replace_blank, replace_hit hw0 hw k]
    · simp [List.replicate_succ]
    · exact prefix_blank hw0 hw _

/-- The first word does not continue the pattern. -/
theorem words_prefix {w : Str} {ws : List Str} {s : Str} (hw : ∀ c ∈ w, c ≠ ' ') (h : Words ws s) (hd : ws.head? ≠ some w) : (w ++ [' ']).isPrefixOf s = false := by
  cases h with
  | one h0 hc => exact prefix_last hc
  | cons n h0 hc hs =>
    rw [List.append_assoc, List.cons_append]
    exact prefix_word hw hc (fun e => hd (by rw [← e]; rfl))

/-- Texts without the word stay as they are (the first word may be anything). -/
theorem replace_none {w n : Str} (hw0 : w ≠ []) (hw : ∀ c ∈ w, c ≠ ' ') {ws : List Str} {s : Str} (h : Words ws s) (hn : w ∉ ws.tail) :
    replace (pat w) n s = s := by
  induction h with
  | one h0 hc =>
    rename_i v
    have := replace_word (w := w) (n := n) hc []
    rwa [List.append_nil, replace_nil, List.append_nil] at this
  | cons m h0 hc hs ih =>
    rename_i v s ws
    have hd : ws.head? ≠ some w := by
      intro e
      obtain ⟨t, rfl⟩ := List.head?_eq_some_iff.1 e
      exact hn (by simp)
    rw [List.append_assoc, replace_word hc]
    have := replace_run (n := n) hw0 hw (words_prefix hw hs hd) (m + 1)
    rw [List.replicate_succ] at this
    rw [this, ih (fun h => hn (by simp only [List.tail_cons]; exact List.mem_of_mem_tail h))]

/-- The word is replaced by another word. -/
theorem replace_by {w u : Str} (hw0 : w ≠ []) (hw : ∀ c ∈ w, c ≠ ' ') (hu0 : u ≠ []) (hu : ∀ c ∈ u, c ≠ ' ') {bs : List Str} (hb0 : bs ≠ []) (hb : w ∉ bs) :
    ∀ (as : List Str) (a s : Str), w ∉ as → Words (a :: as ++ w :: bs) s → Words (a :: as ++ u :: bs) (replace (pat w) (pat u) s)
  | [], a, _, _, h => by
    cases h with
    | cons m h0 hc hs =>
      cases hs with
      | one => exact absurd rfl hb0
      | cons k w0 wc ht =>
        rename_i t
        have hd : bs.head? ≠ some w := by
          intro e
          obtain ⟨x, rfl⟩ := List.head?_eq_some_iff.1 e
          exact hb (by simp)
        have e : a ++ (' ' :: List.replicate m ' ') ++ (w ++ (' ' :: List.replicate k ' ') ++ t) =
            a ++ (' ' :: List.replicate m ' ' ++ w ++ ' ' :: (List.replicate k ' ' ++ t)) := by simp
        rw [e, replace_word hc, replace_hit hw0 hw, replace_run hw0 hw (words_prefix hw ht hd),
          replace_none hw0 hw ht (fun h => hb (List.mem_of_mem_tail h))]
        have e2 : a ++ (List.replicate m ' ' ++ pat u ++ (List.replicate k ' ' ++ t)) =
            a ++ (' ' :: List.replicate m ' ') ++ (u ++ (' ' :: List.replicate k ' ') ++ t) := by
          have : List.replicate m ' ' ++ [' '] = ' ' :: List.replicate m ' ' := by rw [← List.replicate_succ, List.replicate_succ']
          unfold pat
          rw [← this]; simp
        rw [e2]
        exact .cons m h0 hc (.cons k hu0 hu ht)
  | x :: as, a, _, ha, h => by
    cases h with
    | cons m h0 hc hs =>
      rename_i t
      have hd : (x :: as ++ w :: bs).head? ≠ some w := by
        intro e
        simp only [List.cons_append, List.head?_cons, Option.some.injEq] at e
        exact ha (by simp [e])
      rw [List.append_assoc, replace_word hc]
      have := replace_run (n := pat u) hw0 hw (words_prefix hw hs hd) (m + 1)
      rw [List.replicate_succ] at this
      rw [this, ← List.append_assoc]
      exact .cons m h0 hc (replace_by hw0 hw hu0 hu hb0 hb as x t (fun h => ha (by simp [h])) hs)

/-- The word is deleted. -/
theorem replace_del {w : Str} (hw0 : w ≠ []) (hw : ∀ c ∈ w, c ≠ ' ') {bs : List Str} (hb0 : bs ≠ []) (hb : w ∉ bs) :
    ∀ (as : List Str) (a s : Str), w ∉ as → Words (a :: as ++ w :: bs) s → Words (a :: as ++ bs) (replace (pat w) [' '] s)
  | [], a, _, _, h => by
    cases h with
    | cons m h0 hc hs =>
      cases hs with
      | one => exact absurd rfl hb0
      | cons k w0 wc ht =>
        rename_i t
        have hd : bs.head? ≠ some w := by
          intro e
          obtain ⟨x, rfl⟩ := List.head?_eq_some_iff.1 e
          exact hb (by simp)
        have e : a ++ (' ' :: List.replicate m ' ') ++ (w ++ (' ' :: List.replicate k ' ') ++ t) =
            a ++ (' ' :: List.replicate m ' ' ++ w ++ ' ' :: (List.replicate k ' ' ++ t)) := by simp
        rw [e, replace_word hc, replace_hit hw0 hw, replace_run hw0 hw (words_prefix hw ht hd),
          replace_none hw0 hw ht (fun h => hb (List.mem_of_mem_tail h))]
        have e2 : a ++ (List.replicate m ' ' ++ [' '] ++ (List.replicate k ' ' ++ t)) = a ++ (' ' :: List.replicate (m + k) ' ') ++ t := by
          have : List.replicate m ' ' ++ [' '] = ' ' :: List.replicate m ' ' := by rw [← List.replicate_succ, List.replicate_succ']
          rw [this, List.replicate_add]; simp only [List.cons_append, List.append_assoc]
        rw [e2]
        exact .cons (m + k) h0 hc ht
  | x :: as, a, _, ha, h => by
    cases h with
    | cons m h0 hc hs =>
      rename_i t
      have hd : (x :: as ++ w :: bs).head? ≠ some w := by
        intro e
        simp only [List.cons_append, List.head?_cons, Option.some.injEq] at e
        exact ha (by simp [e])
      rw [List.append_assoc, replace_word hc]
      have := replace_run (n := [' ']) hw0 hw (words_prefix hw hs hd) (m + 1)
      rw [List.replicate_succ] at this
      rw [this, ← List.append_assoc]
      exact .cons m h0 hc (replace_del hw0 hw hb0 hb as x t (fun h => ha (by simp [h])) hs)

/-! ### The end of a line -/

theorem replace_end {x : Str} (hx : '\n' ∉ x) : replace " \n".toList [] (x ++ " \n".toList) = x := by
  induction x with
  | nil => decide +kernel
  | cons c x ih =>
    rw [List.cons_append, replace_cons_neg, ih (fun h => hx (by simp [h]))]
    rw [← Bool.not_eq_true, List.isPrefixOf_iff_prefix]
    change ¬ [' ', '\n'] <+: c :: (x ++ [' ', '\n'])
    rintro ⟨t, ht⟩
    cases x with
    | nil => simp at ht
    | cons d x => simp only [List.cons_append, List.nil_append, List.cons.injEq] at ht; exact hx (ht.2.1 ▸ by simp)

theorem replace_end' {x : Str} (hx : '\n' ∉ x) (hl : ∀ y, x ≠ y ++ [' ']) : replace " \n".toList [] (x ++ ['\n']) = x ++ ['\n'] := by
  induction x with
  | nil => decide +kernel
  | cons c x ih =>
    rw [List.cons_append, replace_cons_neg, ih (fun h => hx (by simp [h])) (fun y h => hl (c :: y) (by rw [h]; rfl))]
    rw [← Bool.not_eq_true, List.isPrefixOf_iff_prefix]
    change ¬ [' ', '\n'] <+: c :: (x ++ ['\n'])
    rintro ⟨t, ht⟩
    cases x with
    | nil => simp only [List.cons_append, List.nil_append, List.cons.injEq] at ht; exact hl [] (by rw [ht.1]; rfl)
    | cons d x => simp only [List.cons_append, List.nil_append, List.cons.injEq] at ht; exact hx (ht.2.1 ▸ by simp)

theorem replace_newline {x : Str} (hx : '\n' ∉ x) (e : Str) (he : e = [] ∨ e = ['\n']) : replace "\n".toList [] (x ++ e) = x := by
  induction x with
  | nil => rcases he with rfl | rfl <;> decide +kernel
  | cons c x ih =>
    rw [List.cons_append, replace_cons_neg, ih (fun h => hx (by simp [h]))]
    change List.isPrefixOf ['\n'] (c :: (x ++ e)) = false
    rw [List.isPrefixOf_cons_cons]
    have : '\n' ≠ c := fun h => hx (h ▸ by simp)
    simp [this]

theorem inter_split (s : Str) : [' '].intercalate (split s) = s := by
  induction s with
  | nil => rfl
  | cons c s ih =>
    rw [split]
    split
    · rename_i h
      subst h
      cases hs : split s with
      | nil => rw [hs] at ih; rw [← ih] at hs; exact absurd hs (by decide)
      | cons w ws => rw [hs] at ih; rw [List.intercalate_cons_cons, ih]; rfl
    · cases hs : split s with
      | nil => rw [hs] at ih; rw [← ih] at hs; exact absurd hs (by decide)
      | cons w ws =>
        dsimp only
        rw [hs] at ih
        cases ws with
        | nil => rw [List.intercalate_singleton] at ih ⊢; rw [ih]
        | cons v ws => rw [List.intercalate_cons_cons] at ih ⊢; rw [← ih]; simp

theorem words_snoc {ws : List Str} {s : Str} (h : Words ws s) (k : ℕ) : Words (ws ++ [['\n']]) (s ++ (' ' :: List.replicate k ' ') ++ ['\n']) := by
  induction h with
  | one h0 hc => exact .cons k h0 hc (.one (by simp) (by simp))
  | cons n h0 hc hs ih =>
    rw [List.append_assoc (_ ++ _), List.append_assoc (_ ++ _), ← List.append_assoc _ (' ' :: List.replicate k ' ')]
    exact .cons n h0 hc ih

theorem words_end {as : List Str} {z s : Str} (h : Words (as ++ [z]) s) : Words (as ++ [z ++ ['\n']]) (s ++ ['\n']) := by
  induction as generalizing s with
  | nil =>
    cases h with
    | one h0 hc => exact .one (by simp) (by intro c hc'; rcases List.mem_append.1 hc' with h | h; exacts [hc c h, by simp at h; rw [h]; decide])
    | cons n _ _ hs => cases hs
  | cons a as ih =>
    rw [List.cons_append] at h
    generalize hl : as ++ [z] = l at h
    cases h with
    | one _ _ => simp at hl
    | cons n h0 hc hs =>
      subst hl
      rw [List.append_assoc]
      exact .cons n h0 hc (ih hs)

theorem collapse_words' {ws : List Str} {s : Str} (h : Words ws s) : collapse s = [' '].intercalate ws := by
  rw [← inter_split (collapse s), collapse_words s h]

theorem inter_snoc : ∀ {ws : List Str} (z : Str), ws ≠ [] → [' '].intercalate (ws ++ [z]) = [' '].intercalate ws ++ ' ' :: z
  | [], _, h => absurd rfl h
  | [a], z, _ => by simp [List.intercalate]
  | a :: b :: ws, z, _ => by
    rw [List.cons_append, List.cons_append, List.intercalate_cons_cons, List.intercalate_cons_cons, ← List.cons_append, inter_snoc z (by simp)]
    simp

theorem inter_no {ws : List Str} (h : ∀ w ∈ ws, '\n' ∉ w) : '\n' ∉ [' '].intercalate ws := by
  match ws with
  | [] => simp [List.intercalate]
  | [a] => rw [List.intercalate_singleton]; exact h a (by simp)
  | a :: b :: ws =>
    rw [List.intercalate_cons_cons]
    intro hm
    rcases List.mem_append.1 hm with hm | hm
    · rcases List.mem_append.1 hm with hm | hm
      · exact h a (by simp) hm
      · simp at hm
    · exact inter_no (fun w hw => h w (by simp [hw])) hm

theorem inter_last {as : List Str} {z : Str} (hz0 : z ≠ []) (hz : ∀ c ∈ z, c ≠ ' ') (y : Str) : [' '].intercalate (as ++ [z]) ≠ y ++ [' '] := by
  intro e
  have : ([' '].intercalate (as ++ [z])).getLast? = z.getLast? := by
    by_cases h : as = []
    · rw [h, List.nil_append, List.intercalate_singleton]
    · rw [inter_snoc z h, List.getLast?_append]
      obtain ⟨c, hc⟩ := Option.isSome_iff_exists.1 (List.getLast?_isSome.2 hz0)
      rw [List.getLast?_cons, hc]; rfl
  rw [e] at this
  simp only [List.getLast?_append, List.getLast?_singleton, Option.some_or] at this
  exact hz ' ' (List.mem_of_getLast? this.symm) rfl

theorem split_inter {ws : List Str} (h0 : ws ≠ []) (h : ∀ w ∈ ws, w ≠ [] ∧ ∀ c ∈ w, c ≠ ' ') : split ([' '].intercalate ws) = ws := by
  have hw : ∀ {ws : List Str}, ws ≠ [] → (∀ w ∈ ws, w ≠ [] ∧ ∀ c ∈ w, c ≠ ' ') → Words ws ([' '].intercalate ws) := by
    intro ws
    induction ws with
    | nil => intro h; exact absurd rfl h
    | cons a ws ih =>
      intro _ h
      cases ws with
      | nil => rw [List.intercalate_singleton]; exact .one (h a (by simp)).1 (h a (by simp)).2
      | cons b ws =>
        rw [List.intercalate_cons_cons]
        exact .cons 0 (h a (by simp)).1 (h a (by simp)).2 (ih (by simp) (fun w hw => h w (by simp [hw])))
  have k := hw h0 h
  have : ∀ s, Words ws s → split (collapse s) = ws := collapse_words
  rw [← collapse_words' k]
  exact this _ k

theorem spaced_words {fs : List Str} {s : Str} (h : Spaced fs s) : Words fs s := by
  induction h with
  | one hf => exact .one hf.1 (item_words hf)
  | cons n hf _ ih => exact .cons n hf.1 (item_words hf) ih

theorem spaced_items {fs : List Str} {s : Str} (h : Spaced fs s) : fs ≠ [] ∧ ∀ f ∈ fs, Item f := by
  induction h with
  | one hf => exact ⟨by simp, by simpa using hf⟩
  | cons n hf _ ih => exact ⟨by simp, fun g hg => by rcases List.mem_cons.1 hg with rfl | hg; exacts [hf, ih.2 g hg]⟩

/-- `298` stands for 298.15. -/
def fix (t : Str) : Str := if t = "298".toList then "298.15".toList else t

/-- What remains of the items of a line. -/
theorem tokens_row {a : Str} {as : List Str} {tmin tmax s : Str} (k : ℕ) (h : Spaced (a :: as ++ [tmin, "-".toList, tmax]) s)
    (h1 : ∀ x ∈ as, x ≠ "298".toList ∧ x ≠ "-".toList) (h2 : tmin ≠ "-".toList) (h3 : tmax ≠ "298".toList ∧ tmax ≠ "-".toList) :
    tokens (s ++ List.replicate k ' ' ++ ['\n']) = a :: as ++ [fix tmin, tmax] := by
  have hit := (spaced_items h).2
  -- the words of the line, with its end
  obtain ⟨z, zs, w0, hzs, hwn, hz1⟩ : ∃ z : Str, ∃ zs : List Str, Words (a :: as ++ tmin :: "-".toList :: z :: zs) (s ++ List.replicate k ' ' ++ ['\n']) ∧
      ((zs = [] ∧ z = tmax ++ ['\n']) ∨ (zs = [['\n']] ∧ z = tmax)) ∧ "298".toList ∉ z :: zs ∧ "-".toList ∉ z :: zs := by
    cases k with
    | zero =>
      refine ⟨tmax ++ ['\n'], [], ?_, Or.inl ⟨rfl, rfl⟩, ?_, ?_⟩
      · have := words_end (as := a :: as ++ [tmin, "-".toList]) (z := tmax) (s := s) (by simpa using spaced_words h)
        simpa using this
      · intro hm
        rw [List.mem_singleton] at hm
        have := congrArg List.getLast? hm
        simp at this
      · intro hm
        rw [List.mem_singleton] at hm
        have := congrArg List.getLast? hm
        simp at this
    | succ k =>
      refine ⟨tmax, [['\n']], ?_, Or.inr ⟨rfl, rfl⟩, ?_, ?_⟩
      · have := words_snoc (spaced_words h) k
        simpa [List.replicate_succ] using this
      · intro hm; simp only [List.mem_cons, List.not_mem_nil, or_false] at hm
        rcases hm with hm | hm
        · exact h3.1 hm.symm
        · exact absurd hm (by decide)
      · intro hm; simp only [List.mem_cons, List.not_mem_nil, or_false] at hm
        rcases hm with hm | hm
        · exact h3.2 hm.symm
        · exact absurd hm (by decide)
  have n298 : "298".toList ≠ [] ∧ ∀ c ∈ "298".toList, c ≠ ' ' := by decide
  have ndash : "-".toList ≠ [] ∧ ∀ c ∈ "-".toList, c ≠ ' ' := by decide
  have nfix : "298.15".toList ≠ [] ∧ ∀ c ∈ "298.15".toList, c ≠ ' ' := by decide
  have w1 : Words (a :: as ++ fix tmin :: "-".toList :: z :: zs) (replace " 298 ".toList " 298.15 ".toList (s ++ List.replicate k ' ' ++ ['\n'])) := by
    unfold fix
    by_cases ht : tmin = "298".toList
    · rw [if_pos ht]
      rw [ht] at w0
      exact replace_by (u := "298.15".toList) n298.1 n298.2 nfix.1 nfix.2 (by simp) (by
        intro hm
        rcases List.mem_cons.1 hm with hm | hm
        · exact absurd hm (by decide)
        · exact hwn hm) as a _ (fun hm => (h1 _ hm).1 rfl) w0
    · rw [if_neg ht]
      rw [show " 298 ".toList = pat "298".toList by decide, replace_none n298.1 n298.2 w0]
      · exact w0
      · intro hm
        rw [List.cons_append, List.tail_cons, List.mem_append] at hm
        rcases hm with hm | hm
        · exact (h1 _ hm).1 rfl
        · simp only [List.mem_cons] at hm hwn
          rcases hm with hm | hm | hm
          · exact ht hm.symm
          · exact absurd hm (by decide)
          · exact hwn (by simpa using hm)
  have w2 : Words (a :: (as ++ [fix tmin]) ++ z :: zs) (replace " - ".toList " ".toList (replace " 298 ".toList " 298.15 ".toList (s ++ List.replicate k ' ' ++ ['\n']))) := by
    refine replace_del (w := "-".toList) ndash.1 ndash.2 (by simp) hz1 (as ++ [fix tmin]) a _ ?_ (by simpa using w1)
    intro hm
    rcases List.mem_append.1 hm with hm | hm
    · exact (h1 _ hm).2 rfl
    · rw [List.mem_singleton] at hm
      unfold fix at hm
      split at hm
      · exact absurd hm (by decide)
      · exact h2 hm.symm
  have hnl : ∀ w ∈ a :: (as ++ [fix tmin]) ++ [tmax], '\n' ∉ w := by
    intro w hw hm
    have hi : ∀ {x : Str}, Item x → '\n' ∉ x := fun hx hm => (isSpace_ne (hx.2 _ hm)).2.2.1 rfl
    simp only [List.cons_append, List.mem_cons, List.mem_append, List.append_assoc, List.not_mem_nil, or_false, false_or] at hw
    rcases hw with rfl | hw | rfl | rfl
    · exact hi (hit w (by simp)) hm
    · exact hi (hit w (by simp [hw])) hm
    · unfold fix at hm
      split at hm
      · exact absurd hm (by decide)
      · exact hi (hit tmin (by simp)) hm
    · exact hi (hit w (by simp)) hm
  have hok : ∀ w ∈ a :: (as ++ [fix tmin]) ++ [tmax], w ≠ [] ∧ ∀ c ∈ w, c ≠ ' ' := by
    intro w hw
    simp only [List.cons_append, List.mem_cons, List.mem_append, List.append_assoc, List.not_mem_nil, or_false, false_or] at hw
    have hi : ∀ {x : Str}, Item x → x ≠ [] ∧ ∀ c ∈ x, c ≠ ' ' := fun hx => ⟨hx.1, item_words hx⟩
    rcases hw with rfl | hw | rfl | rfl
    · exact hi (hit w (by simp))
    · exact hi (hit w (by simp [hw]))
    · unfold fix
      split
      · exact nfix
      · exact hi (hit tmin (by simp))
    · exact hi (hit w (by simp))
  unfold tokens
  dsimp only
  rw [collapse_words' w2]
  have fin : ∀ e, e = [] ∨ e = ['\n'] → split (replace "\n".toList [] ([' '].intercalate (a :: (as ++ [fix tmin]) ++ [tmax]) ++ e)) = a :: as ++ [fix tmin, tmax] := by
    intro e he
    rw [replace_newline (inter_no hnl) e he, split_inter (by simp) hok]
    simp
  rcases hzs with ⟨rfl, rfl⟩ | ⟨rfl, rfl⟩
  · have e1 : [' '].intercalate (a :: (as ++ [fix tmin]) ++ [tmax ++ ['\n']]) = [' '].intercalate (a :: (as ++ [fix tmin]) ++ [tmax]) ++ ['\n'] := by
      rw [inter_snoc _ (by simp), inter_snoc _ (by simp)]; simp
    rw [e1, replace_end' (inter_no hnl) (inter_last (hok tmax (by simp)).1 (hok tmax (by simp)).2)]
    exact fin _ (Or.inr rfl)
  · have e1 : [' '].intercalate (a :: (as ++ [fix tmin]) ++ [z, ['\n']]) = [' '].intercalate (a :: (as ++ [fix tmin]) ++ [z]) ++ " \n".toList := by
      rw [show a :: (as ++ [fix tmin]) ++ [z, ['\n']] = (a :: (as ++ [fix tmin]) ++ [z]) ++ [['\n']] by simp, inter_snoc _ (by simp)]
      rfl
    rw [e1, replace_end (inter_no hnl)]
    have := fin [] (Or.inl rfl)
    rwa [List.append_nil] at this

theorem tokens_blank (k : ℕ) : (tokens (List.replicate k ' ' ++ ['\n'])).length < 2 := by
  have keep : ∀ (w n : Str), w ≠ [] → (∀ c ∈ w, c ≠ ' ') → replace (pat w) n (List.replicate k ' ' ++ ['\n']) = List.replicate k ' ' ++ ['\n'] := by
    intro w n hw0 hw
    rw [replace_run hw0 hw (prefix_last (by decide))]
    congr 1
    have := replace_word (w := w) (n := n) (v := ['\n']) (by decide) []
    rwa [List.append_nil, replace_nil, List.append_nil] at this
  have col : ∀ n, collapse (' ' :: List.replicate n ' ' ++ ['\n']) = " \n".toList := by
    intro n
    induction n using Nat.strong_induction_on with
    | _ n ih =>
      cases n with
      | zero => rw [collapse, dif_neg (by decide)]; rfl
      | succ n =>
        have hd : hasDouble (' ' :: List.replicate (n + 1) ' ' ++ ['\n']) = true := by
          rw [List.replicate_succ, List.cons_append, List.cons_append, hasDouble, if_pos ⟨rfl, rfl⟩]
        rw [collapse, dif_pos hd]
        have hlt := replaceDouble_length_lt _ hd
        obtain ⟨m, _, e⟩ := replaceDouble_run (c := '\n') (by decide) [] (n + 1)
        rw [show replaceDouble ['\n'] = ['\n'] from rfl] at e
        rw [e] at hlt ⊢
        refine ih m ?_
        simp only [List.length_append, List.length_cons, List.length_replicate, List.length_nil] at hlt
        omega
  unfold tokens
  dsimp only
  rw [show " 298 ".toList = pat "298".toList by decide, keep _ _ (by decide) (by decide), show " - ".toList = pat "-".toList by decide, keep _ _ (by decide) (by decide)]
  cases k with
  | zero =>
    rw [List.replicate_zero, List.nil_append, show collapse ['\n'] = ['\n'] by rw [collapse, dif_neg (by decide)]]
    decide +kernel
  | succ k =>
    rw [List.replicate_succ, col k]
    decide +kernel

end Auxi.FactSage
