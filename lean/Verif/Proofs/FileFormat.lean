import Verif.Spec.FileFormat

/-!
# Reading laid out text
-/
namespace Auxi.FileFormat
open Spec

/-! ### White space -/

theorem isSpace_blank {c : Char} (h : c = ' ' ∨ c = '\t') : isSpace c = true := by rcases h with rfl | rfl <;> decide

theorem isSpace_ne {c : Char} (h : isSpace c = false) : c ≠ ' ' ∧ c ≠ '\t' ∧ c ≠ '\n' ∧ c ≠ '\r' := by
  refine ⟨?_, ?_, ?_, ?_⟩ <;> rintro rfl <;> exact absurd h (by decide)

theorem dropWhile_space {a s : Str} (ha : ∀ c ∈ a, isSpace c = true) : (a ++ s).dropWhile isSpace = s.dropWhile isSpace := by
  induction a with
  | nil => rfl
  | cons c a ih =>
    have h1 : isSpace c = true := ha c (by simp)
    rw [List.cons_append, List.dropWhile_cons, if_pos h1]
    exact ih (fun d hd => ha d (by simp [hd]))

theorem dropWhile_item {c : Char} {s : Str} (h : isSpace c = false) : (c :: s).dropWhile isSpace = c :: s := by
  rw [List.dropWhile_cons, if_neg (by simp [h])]

/-- A text that neither begins nor ends with white space. -/
def Trim (s : Str) : Prop := (∃ c t, s = c :: t ∧ isSpace c = false) ∧ (∃ c t, s = t ++ [c] ∧ isSpace c = false)

theorem strip_trim {a s b : Str} (ha : ∀ c ∈ a, isSpace c = true) (hb : ∀ c ∈ b, isSpace c = true) (hs : Trim s) :
    strip (a ++ s ++ b) = s := by
  obtain ⟨⟨c, t, h1, hc⟩, ⟨d, u, h2, hd⟩⟩ := hs
  unfold strip
  rw [List.append_assoc, dropWhile_space ha]
  have h3 : (s ++ b).dropWhile isSpace = s ++ b := by
    rw [h1, List.cons_append]; exact dropWhile_item hc
  rw [h3, List.reverse_append, dropWhile_space (fun x hx => hb x (by simpa using hx))]
  have h4 : s.reverse.dropWhile isSpace = s.reverse := by
    rw [h2, List.reverse_append]; exact dropWhile_item hd
  rw [h4, List.reverse_reverse]

theorem strip_blank {s : Str} (h : ∀ c ∈ s, isSpace c = true) : strip s = [] := by
  unfold strip
  have : s.dropWhile isSpace = [] := by
    have := dropWhile_space (s := []) h
    simpa using this
  rw [this]; rfl

/-! ### Collapsing blanks -/

/-- A text of words separated by runs of blanks: the words. -/
inductive Words : List Str → Str → Prop
  | one {w : Str} : w ≠ [] → (∀ c ∈ w, c ≠ ' ') → Words [w] w
  | cons {w s : Str} {ws : List Str} (n : ℕ) : w ≠ [] → (∀ c ∈ w, c ≠ ' ') → Words ws s →
      Words (w :: ws) (w ++ (' ' :: List.replicate n ' ') ++ s)

theorem words_ne {ws : List Str} {s : Str} (h : Words ws s) : ws ≠ [] ∧ ∃ c t, s = c :: t ∧ c ≠ ' ' := by
  cases h with
  | one hw hc =>
    refine ⟨by simp, ?_⟩
    obtain ⟨c, t, rfl⟩ := List.exists_cons_of_ne_nil hw
    exact ⟨c, t, rfl, hc c (by simp)⟩
  | cons n hw hc hs =>
    rename_i w s' ws'
    refine ⟨by simp, ?_⟩
    obtain ⟨c, t, rfl⟩ := List.exists_cons_of_ne_nil hw
    exact ⟨c, _, rfl, hc c (by simp)⟩

theorem replaceDouble_cons {c : Char} (h : c ≠ ' ') (s : Str) : replaceDouble (c :: s) = c :: replaceDouble s := by
  cases s with
  | nil => rfl
  | cons d s => rw [replaceDouble, if_neg (fun h' => h h'.1)]

theorem replaceDouble_word {w : Str} (h : ∀ c ∈ w, c ≠ ' ') (s : Str) : replaceDouble (w ++ s) = w ++ replaceDouble s := by
  induction w with
  | nil => rfl
  | cons c w ih =>
    rw [List.cons_append, replaceDouble_cons (h c (by simp)), ih (fun d hd => h d (by simp [hd])), List.cons_append]

theorem replaceDouble_run {c : Char} (h : c ≠ ' ') (s : Str) : ∀ n, ∃ m, m ≤ n ∧
    replaceDouble ((' ' :: List.replicate n ' ') ++ c :: s) = (' ' :: List.replicate m ' ') ++ replaceDouble (c :: s)
  | 0 => ⟨0, le_rfl, by
      change replaceDouble (' ' :: c :: s) = ' ' :: replaceDouble (c :: s)
      rw [replaceDouble, if_neg (fun h' => h h'.2)]⟩
  | 1 => ⟨0, by omega, by
      change replaceDouble (' ' :: ' ' :: c :: s) = ' ' :: replaceDouble (c :: s)
      rw [replaceDouble, if_pos ⟨rfl, rfl⟩]⟩
  | n + 2 => by
    obtain ⟨m, hm, he⟩ := replaceDouble_run h s n
    refine ⟨m + 1, by omega, ?_⟩
    change replaceDouble (' ' :: ' ' :: ((' ' :: List.replicate n ' ') ++ c :: s)) = _
    rw [replaceDouble, if_pos ⟨rfl, rfl⟩, he]
    simp [List.replicate_succ]

theorem words_replace {ws : List Str} {s : Str} (h : Words ws s) : Words ws (replaceDouble s) := by
  induction h with
  | one hw hc =>
    rename_i w
    have h1 := replaceDouble_word hc []
    rw [List.append_nil] at h1
    rw [h1, replaceDouble, List.append_nil]
    · exact .one hw hc
    · intro c d s h'; cases h'
  | cons n hw hc hs ih =>
    rename_i w s ws
    obtain ⟨_, c, t, rfl, hc'⟩ := words_ne hs
    obtain ⟨m, _, he⟩ := replaceDouble_run hc' t n
    rw [List.append_assoc, replaceDouble_word hc, he, ← List.append_assoc]
    exact .cons m hw hc ih

theorem words_split {ws : List Str} {s : Str} (h : Words ws s) (hd : hasDouble s = false) : split s = ws := by
  have word : ∀ {w : Str}, (∀ c ∈ w, c ≠ ' ') → ∀ {x : Str} {v : Str} {vs : List Str}, split x = v :: vs → split (w ++ x) = (w ++ v) :: vs := by
    intro w hw x v vs hx
    induction w with
    | nil => simpa using hx
    | cons c w ih =>
      rw [List.cons_append, split, if_neg (hw c (by simp)), ih (fun d hd => hw d (by simp [hd]))]
      rfl
  have tail : ∀ {w x : Str}, hasDouble (w ++ x) = false → hasDouble x = false := by
    intro w x
    induction w with
    | nil => exact id
    | cons c w ih =>
      intro hh
      apply ih
      rw [List.cons_append] at hh
      cases hw : w ++ x with
      | nil => rfl
      | cons d y =>
        rw [hw, hasDouble] at hh
        split at hh
        · exact absurd hh (by simp)
        · exact hh
  induction h with
  | one hw hc =>
    rename_i w
    have := word hc (x := []) (v := []) (vs := []) rfl
    simpa using this
  | cons n hw hc hs ih =>
    rename_i w s ws
    cases n with
    | succ n =>
      exfalso
      rw [List.append_assoc] at hd
      have h1 := tail hd
      rw [List.replicate_succ] at h1
      simp [hasDouble] at h1
    | zero =>
      have h1 : split s = ws := ih (tail hd)
      have h2 : split (' ' :: s) = [] :: ws := by rw [split, if_pos rfl, h1]
      have h3 := word hc h2
      rw [List.append_nil] at h3
      have e : w ++ (' ' :: List.replicate 0 ' ') ++ s = w ++ ' ' :: s := by simp
      rw [e]; exact h3

theorem collapse_words {ws : List Str} : ∀ (s : Str), Words ws s → split (collapse s) = ws := by
  intro s
  induction h : s.length using Nat.strong_induction_on generalizing s with
  | _ n ih =>
    intro hw
    rw [collapse]
    by_cases hd : hasDouble s = true
    · rw [dif_pos hd]
      exact ih _ (h ▸ replaceDouble_length_lt s hd) _ rfl (words_replace hw)
    · rw [dif_neg hd]
      exact words_split hw (by simpa using hd)

/-! ### Lines -/

theorem untab_item {f : Str} (h : Item f) : untab f = f := by
  have h' : ∀ c ∈ f, (if c = '\t' then ' ' else c) = c := fun c hc => if_neg (isSpace_ne (h.2 c hc)).2.1
  unfold untab
  exact (List.map_congr_left h').trans (List.map_id' f)

theorem untab_blank {g : Str} (h : Blank g) : untab g = List.replicate g.length ' ' := by
  induction g with
  | nil => rfl
  | cons c g ih =>
    have h1 : (if c = '\t' then ' ' else c) = ' ' := by rcases h c (by simp) with rfl | rfl <;> decide
    have h2 := ih (fun d hd => h d (by simp [hd]))
    unfold untab at h2 ⊢
    rw [List.map_cons, h1, h2]; rfl

theorem untab_append (s t : Str) : untab (s ++ t) = untab s ++ untab t := List.map_append

theorem item_words {f : Str} (h : Item f) : ∀ c ∈ f, c ≠ ' ' := fun c hc => (isSpace_ne (h.2 c hc)).1

theorem items_words {fs : List Str} {s : Str} (h : Items fs s) : Words fs (untab s) := by
  induction h with
  | one hf => rw [untab_item hf]; exact .one hf.1 (item_words hf)
  | cons hf hg hb hs ih =>
    rename_i f g s fs
    rw [untab_append, untab_append, untab_item hf, untab_blank hb]
    obtain ⟨c, g', rfl⟩ := List.exists_cons_of_ne_nil hg
    rw [List.length_cons, List.replicate_succ]
    exact .cons _ hf.1 (item_words hf) ih

theorem item_trim {f : Str} (h : Item f) : Trim f := by
  constructor
  · obtain ⟨c, t, rfl⟩ := List.exists_cons_of_ne_nil h.1
    exact ⟨c, t, rfl, h.2 c (by simp)⟩
  · refine ⟨f.getLast h.1, f.dropLast, (List.dropLast_append_getLast h.1).symm, h.2 _ (List.getLast_mem h.1)⟩

theorem items_trim {fs : List Str} {s : Str} (h : Items fs s) : Trim s := by
  induction h with
  | one hf => exact item_trim hf
  | cons hf hg hb hs ih =>
    rename_i f g s fs
    obtain ⟨⟨c, t, e1, hc⟩, _⟩ := item_trim hf
    obtain ⟨_, ⟨d, u, e2, hd⟩⟩ := ih
    refine ⟨⟨c, t ++ g ++ s, by rw [e1]; simp, hc⟩, ⟨d, f ++ g ++ u, by rw [e2]; simp, hd⟩⟩

/-- What a line holding the items `fs` becomes after splitting. -/
def cut (fs : List Str) : List Str := if fs = [] then [[]] else fs

theorem prepare_line {fs : List Str} {s e : Str} (h : Line fs s) (he : ∀ c ∈ e, isSpace c = true) : split (prepare (s ++ e)) = cut fs := by
  have blank : ∀ {b : Str}, Blank b → ∀ c ∈ b, isSpace c = true := fun hb c hc => isSpace_blank (hb c hc)
  cases h with
  | blank hb =>
    have h1 : strip (s ++ e) = [] := strip_blank (fun c hc => by
      rcases List.mem_append.1 hc with h | h
      · exact blank hb c h
      · exact he c h)
    unfold prepare
    rw [h1]
    change split (collapse []) = [[]]
    rw [collapse, dif_neg (by decide)]; rfl
  | items ha hs hb =>
    rename_i a s b
    have h1 : strip (a ++ s ++ b ++ e) = s := by
      rw [List.append_assoc]
      refine strip_trim (blank ha) (fun c hc => ?_) (items_trim hs)
      rcases List.mem_append.1 hc with h | h
      · exact blank hb c h
      · exact he c h
    unfold prepare
    rw [h1, collapse_words _ (items_words hs)]
    unfold cut
    rw [if_neg (words_ne (items_words hs)).1]

/-! ### Text -/

theorem line_plain {fs : List Str} {s : Str} (h : Line fs s) : ∀ c ∈ s, c ≠ '\n' ∧ c ≠ '\r' := by
  have blank : ∀ {b : Str}, Blank b → ∀ c ∈ b, c ≠ '\n' ∧ c ≠ '\r' := by
    intro b hb c hc
    rcases hb c hc with rfl | rfl <;> decide
  have items : ∀ {fs : List Str} {s : Str}, Items fs s → ∀ c ∈ s, c ≠ '\n' ∧ c ≠ '\r' := by
    intro fs s h
    induction h with
    | one hf => exact fun c hc => (isSpace_ne (hf.2 c hc)).2.2
    | cons hf hg hb hs ih =>
      intro c hc
      simp only [List.mem_append] at hc
      rcases hc with (hc | hc) | hc
      · exact (isSpace_ne (hf.2 c hc)).2.2
      · exact blank hb c hc
      · exact ih c hc
  cases h with
  | blank hb => exact blank hb
  | items ha hs hb =>
    intro c hc
    simp only [List.mem_append] at hc
    rcases hc with (hc | hc) | hc
    · exact blank ha c hc
    · exact items hs c hc
    · exact blank hb c hc

theorem universal_cons {c : Char} (h : c ≠ '\r') (s : Str) : universal (c :: s) = c :: universal s := by
  rw [universal]
  · rw [if_neg h]
  · intro s' h' hs'; exact h h'

theorem universal_plain {s : Str} (h : ∀ c ∈ s, c ≠ '\n' ∧ c ≠ '\r') (t : Str) : universal (s ++ t) = s ++ universal t := by
  induction s with
  | nil => rfl
  | cons c s ih =>
    rw [List.cons_append, universal_cons (h c (by simp)).2, ih (fun d hd => h d (by simp [hd])), List.cons_append]

theorem readlines_line {s : Str} (h : ∀ c ∈ s, c ≠ '\n' ∧ c ≠ '\r') (t : Str) :
    readlines (s ++ '\n' :: t) = (s ++ ['\n']) :: readlines t := by
  induction s with
  | nil => rw [List.nil_append, readlines, if_pos rfl]; rfl
  | cons c s ih =>
    rw [List.cons_append, readlines, if_neg (h c (by simp)).1, ih (fun d hd => h d (by simp [hd]))]; rfl

theorem readlines_last {s : Str} (hs : s ≠ []) (h : ∀ c ∈ s, c ≠ '\n' ∧ c ≠ '\r') : readlines s = [s] := by
  induction s with
  | nil => exact absurd rfl hs
  | cons c s ih =>
    rw [readlines, if_neg (h c (by simp)).1]
    by_cases hs' : s = []
    · subst hs'; rfl
    · rw [ih hs' (fun d hd => h d (by simp [hd]))]

/-- The lines of a laid out text, split into items. -/
theorem fileLines_layout {rows : List (List Str)} {t : Str} (h : Layout rows t) : (fileLines t).map split = rows.map cut := by
  induction h with
  | nil => rfl
  | last hs hl =>
    rename_i fs s
    have h1 := universal_plain (line_plain hl) []
    rw [List.append_nil] at h1
    unfold fileLines
    rw [h1]
    change (List.map prepare (readlines (s ++ []))).map split = _
    rw [List.append_nil, readlines_last hs (line_plain hl)]
    have h2 := prepare_line hl (e := []) (by simp)
    rw [List.append_nil] at h2
    simp [h2]
  | cons hl he ht ih =>
    rename_i fs s e t rows
    have h1 : universal (s ++ e ++ t) = s ++ '\n' :: universal t := by
      rw [List.append_assoc, universal_plain (line_plain hl)]
      rcases he with rfl | rfl
      · change s ++ universal ('\n' :: t) = _
        rw [universal_cons (by decide)]
      · rfl
    unfold fileLines at ih ⊢
    rw [h1, readlines_line (line_plain hl)]
    rw [List.map_cons, List.map_cons, List.map_cons, prepare_line hl (by intro c hc; simp only [List.mem_singleton] at hc; subst hc; decide), ih]

end Auxi.FileFormat
