import Verif.Spec.Paths
import Verif.Proofs.YearEnd

namespace Auxi.Paths
open Auxi Auxi.Business Auxi.Ledger.Spec Auxi.Paths.Spec

theorem joined_eq : ∀ l : List Str, joined l = joinSlash l
  | [] => rfl
  | [a] => rfl
  | a :: b :: r => by
    show a ++ '/' :: joined (b :: r) = a ++ '/' :: joinSlash (b :: r)
    rw [joined_eq (b :: r)]

theorem segments_append (a b : Str) : segments (a ++ '/' :: b) = segments a ++ segments b := by
  induction a with
  | nil => simp [segments]
  | cons c a ih =>
    simp only [List.cons_append, segments]
    split
    · rw [ih]; rfl
    · rw [ih]
      cases h : segments a with
      | nil => exact absurd h (Ledger.segments_ne_nil a)
      | cons s r => rfl

theorem segments_plain {b : Str} (h : '/' ∉ b) : segments b = [b] := by
  induction b with
  | nil => rfl
  | cons c b ih =>
    simp only [List.mem_cons, not_or] at h
    simp only [segments, if_neg (Ne.symm h.1), ih h.2]

/-- Going along the names that are not empty. -/
def goes (l : List Str) (dir : List Str) : List Str := l.foldl go dir

theorem along_append (dir : List Str) (a b : Str) : along dir (a ++ '/' :: b) = along (along dir a) b := by
  unfold along
  rw [segments_append, List.foldl_append]

theorem along_nil (dir : List Str) : along dir [] = dir := rfl

theorem along_slash (dir : List Str) (a : Str) : along dir (a ++ ['/']) = along dir a := by
  rw [along_append, along_nil]

theorem along_slashes (dir : List Str) : ∀ (k : Nat) (a : Str), along dir (a ++ List.replicate k '/') = along dir a := by
  intro k
  induction k with
  | zero => intro a; simp
  | succ k ih =>
    intro a
    rw [List.replicate_succ', ← List.append_assoc, along_slash, ih]

theorem of_mem_takeWhile {p : Char → Bool} {c : Char} : ∀ {l : Str}, c ∈ l.takeWhile p → p c = true := by
  intro l
  induction l with
  | nil => simp
  | cons a l ih =>
    rw [List.takeWhile_cons]
    split
    · intro h
      rcases List.mem_cons.1 h with rfl | h
      · assumption
      · exact ih h
    · simp

theorem dropWhile_nil {p : Char → Bool} : ∀ {l : Str}, l.dropWhile p = [] → ∀ c ∈ l, p c = true := by
  intro l
  induction l with
  | nil => simp
  | cons a l ih =>
    rw [List.dropWhile_cons]
    split
    · intro h c hc
      rcases List.mem_cons.1 hc with rfl | hc
      · assumption
      · exact ih h c hc
    · simp

theorem takeWhile_slashes (s : Str) : s.takeWhile (fun c => c = '/') = List.replicate (s.takeWhile (fun c => c = '/')).length '/' := by
  rw [List.eq_replicate_iff]
  refine ⟨rfl, ?_⟩
  intro c hc
  have := of_mem_takeWhile hc
  simpa using this

theorem rstrip_spec (s : Str) : ∃ k, s = rstripSlash s ++ List.replicate k '/' := by
  refine ⟨(s.reverse.takeWhile (fun c => c = '/')).length, ?_⟩
  have := congrArg List.reverse (List.takeWhile_append_dropWhile (p := fun c : Char => decide (c = '/')) (l := s.reverse))
  rw [List.reverse_append, List.reverse_reverse, takeWhile_slashes s.reverse, List.reverse_replicate] at this
  unfold rstripSlash
  simpa using this.symm

theorem dirname_spec (p : Str) (h : '/' ∈ p) : ∃ d b k, p = d ++ '/' :: b ∧ '/' ∉ b ∧ d ++ ['/'] = dirname p ++ List.replicate k '/' := by
  have hd : ∃ d b, p = d ++ '/' :: b ∧ '/' ∉ b ∧ (p.reverse.dropWhile (fun c => decide (c ≠ '/'))).reverse = d ++ ['/'] := by
    have h1 := List.takeWhile_append_dropWhile (p := fun c : Char => decide (c ≠ '/')) (l := p.reverse)
    cases hx : p.reverse.dropWhile (fun c => decide (c ≠ '/')) with
    | nil =>
      rw [hx, List.append_nil] at h1
      have : '/' ∈ p.reverse.takeWhile (fun c => decide (c ≠ '/')) := by rw [h1]; simpa using h
      have := of_mem_takeWhile this
      simp at this
    | cons c r =>
      have hc : c = '/' := by
        have := List.head?_dropWhile_not (p := fun c : Char => decide (c ≠ '/')) p.reverse
        rw [hx] at this
        simpa using this
      subst hc
      refine ⟨r.reverse, (p.reverse.takeWhile (fun c => decide (c ≠ '/'))).reverse, ?_, ?_, by simp⟩
      · have := congrArg List.reverse h1
        rw [hx] at this
        simpa using this.symm
      · intro hm
        have := of_mem_takeWhile (List.mem_reverse.1 hm)
        simp at this
  obtain ⟨d, b, e1, e2, e3⟩ := hd
  unfold dirname
  rw [e3]
  dsimp only
  split
  · obtain ⟨k, hk⟩ := rstrip_spec (d ++ ['/'])
    exact ⟨d, b, k, e1, e2, hk⟩
  · exact ⟨d, b, 0, e1, e2, by simp⟩

theorem directoryOf_eq {p d b : Str} (h : p = d ++ '/' :: b) (hb : '/' ∉ b) : directoryOf p = along [] d := by
  unfold directoryOf along
  rw [h, segments_append, segments_plain hb, List.dropLast_concat]

theorem along_dirname (p : Str) (h : '/' ∈ p) : along [] (dirname p) = directoryOf p := by
  obtain ⟨d, b, k, h1, h2, h3⟩ := dirname_spec p h
  rw [directoryOf_eq h1 h2, ← along_slash [] d, h3, along_slashes]

theorem along_join (dir : List Str) (a b : Str) (hb : b.head? ≠ some '/') (ha : a ≠ []) : along dir (join a b) = along (along dir a) b := by
  unfold join
  rw [if_neg hb]
  split
  · rename_i h
    rcases h with h | h
    · exact absurd h ha
    · obtain ⟨x, hx⟩ := List.getLast?_eq_some_iff.1 h
      rw [hx, List.append_assoc]
      show along dir (x ++ '/' :: b) = along (along dir (x ++ ['/'])) b
      rw [along_append, along_slash]
  · rw [along_append]

theorem segments_no_slash (s : Str) : ∀ c ∈ segments s, '/' ∉ c := by
  induction s with
  | nil => simp [segments]
  | cons c s ih =>
    simp only [segments]
    split
    · intro x hx
      simp only [List.mem_cons] at hx
      rcases hx with rfl | hx
      · simp
      · exact ih x hx
    · rename_i hc
      cases h : segments s with
      | nil => intro x hx; simp only [List.mem_singleton] at hx; subst hx; simpa using Ne.symm hc
      | cons t r =>
        rw [h] at ih
        intro x hx
        simp only [List.mem_cons] at hx
        rcases hx with rfl | hx
        · simp only [List.mem_cons, not_or]
          exact ⟨Ne.symm hc, ih t (by simp)⟩
        · exact ih x (by simp [hx])

theorem go_plain {l : List Str} {c : Str} (h : Plain l) (hc : '/' ∉ c) : Plain (go l c) := by
  unfold go
  split
  · exact h
  · split
    · exact h
    · split
      · intro n hn; exact h n (List.dropLast_subset _ hn)
      · rename_i h1 h2 h3
        intro n hn
        simp only [List.mem_append, List.mem_singleton] at hn
        rcases hn with hn | rfl
        · exact h n hn
        · exact ⟨h1, h2, h3, hc⟩

theorem step_go {k : Nat} {l : List Str} {c : Str} (h : Plain l) (hk : k ≠ 0) : normStep k l c = go l c := by
  unfold normStep go
  by_cases h1 : c = []
  · simp [h1]
  · by_cases h2 : c = ['.']
    · simp [h2]
    · have e1 : ".".toList = ['.'] := rfl
      have e2 : "..".toList = ['.', '.'] := rfl
      rw [if_neg (by simp [h1, h2]), if_neg h1, e1, if_neg h2, e2]
      by_cases h3 : c = ['.', '.']
      · have hl : l.getLast? ≠ some ['.', '.'] := by
          intro hx
          exact (h _ (List.mem_of_getLast? hx)).2.2.1 rfl
        rw [if_neg (by simp [h3, hk, hl]), if_pos h3]
      · rw [if_pos (.inl h3), if_neg h3]

theorem steps_go {k : Nat} (hk : k ≠ 0) : ∀ (cs : List Str) (l : List Str), Plain l → (∀ c ∈ cs, '/' ∉ c) → cs.foldl (normStep k) l = cs.foldl go l ∧ Plain (cs.foldl go l) := by
  intro cs
  induction cs with
  | nil => intro l h _; exact ⟨rfl, h⟩
  | cons c cs ih =>
    intro l h hc
    simp only [List.foldl_cons]
    rw [step_go h hk]
    exact ih _ (go_plain h (hc c (by simp))) (fun x hx => hc x (by simp [hx]))

theorem along_plain {l : List Str} (p : Str) (h : Plain l) : Plain (along l p) := (steps_go (k := 1) (by decide) _ _ h (segments_no_slash p)).2

theorem initial_rooted {p : Str} (h : Rooted p) : initialSlashes p = 1 := by
  obtain ⟨r, rfl, hr⟩ := h
  cases r with
  | nil => rfl
  | cons c r =>
    have hc : c ≠ '/' := by simpa using hr
    unfold initialSlashes
    split
    · rename_i h; simp only [List.cons.injEq] at h; exact absurd h.2.1 hc
    · rename_i h; simp only [List.cons.injEq] at h; exact absurd h.2.1 hc
    · rfl
    · rename_i h; exact absurd rfl (h _)

theorem normpath_rooted {p : Str} (h : Rooted p) : normpath p = absolute (along [] p) := by
  unfold normpath
  rw [if_neg (by obtain ⟨r, rfl, -⟩ := h; simp), initial_rooted h, splitSlash_eq]
  dsimp only
  rw [(steps_go (k := 1) (by decide) (segments p) [] (by intro n hn; simp at hn) (segments_no_slash p)).1]
  rw [if_neg (by simp), joined_eq]
  rfl

theorem dirname_rooted {p : Str} (h : Rooted p) : Rooted (dirname p) := by
  obtain ⟨r, rfl, hr⟩ := h
  obtain ⟨d, b, k, h1, h2, h3⟩ := dirname_spec ('/' :: r) (by simp)
  cases hx : dirname ('/' :: r) with
  | nil =>
    exfalso
    have hu := hx
    unfold dirname at hu
    dsimp only at hu
    split at hu
    · rename_i hc
      obtain ⟨h5, h6⟩ := hc
      obtain ⟨k', hk'⟩ := rstrip_spec ((('/' :: r).reverse.dropWhile (fun c => decide (c ≠ '/'))).reverse)
      rw [hu, List.nil_append] at hk'
      rw [hk', List.any_eq_true] at h6
      obtain ⟨c, c1, c2⟩ := h6
      have := (List.mem_replicate.1 c1).2
      simp [this] at c2
    · rw [hx] at h3
      have hd : (('/' :: r).reverse.dropWhile (fun c => decide (c ≠ '/'))).reverse ≠ [] := by
        intro h0
        have h0' : ('/' :: r).reverse.dropWhile (fun c => decide (c ≠ '/')) = [] := by simpa using h0
        have := dropWhile_nil h0' '/' (by simp)
        simp at this
      exact hd hu
  | cons c t =>
    rw [hx] at h3
    have hd : ∃ d', d ++ ['/'] = c :: d' := ⟨t ++ List.replicate k '/', by rw [h3]; rfl⟩
    -- the directory's text starts like the path's
    have hpre : (d ++ ['/']) ++ b = '/' :: r := by rw [h1]; simp
    rw [h3] at hpre
    simp only [List.cons_append, List.cons.injEq] at hpre
    refine ⟨t, by rw [hpre.1], ?_⟩
    intro ht
    cases t with
    | nil => simp at ht
    | cons c' t =>
      simp only [List.head?_cons, Option.some.injEq] at ht
      subst ht
      apply hr
      rw [← hpre.2]
      rfl

theorem join_rooted {a b : Str} (ha : Rooted a) (hb : b.head? ≠ some '/') : Rooted (join a b) := by
  obtain ⟨r, rfl, hr⟩ := ha
  unfold join
  rw [if_neg hb]
  split
  · refine ⟨r ++ b, rfl, ?_⟩
    cases r with
    | nil => exact hb
    | cons c r => exact hr
  · refine ⟨r ++ '/' :: b, rfl, ?_⟩
    cases r with
    | nil => rename_i h; simp at h
    | cons c r => exact hr

theorem directoryFrom_eq {dir : List Str} {p d b : Str} (h : p = d ++ '/' :: b) (hb : '/' ∉ b) : directoryFrom dir p = along dir d := by
  unfold directoryFrom along
  rw [h, segments_append, segments_plain hb, List.dropLast_concat]

theorem dropWhile_all {p : Char → Bool} : ∀ {l : Str}, (∀ c ∈ l, p c = true) → l.dropWhile p = [] := by
  intro l
  induction l with
  | nil => intro _; rfl
  | cons a l ih =>
    intro h
    rw [List.dropWhile_cons, if_pos (h a (by simp)), ih (fun c hc => h c (by simp [hc]))]

theorem dirname_bare {p : Str} (h : '/' ∉ p) : dirname p = [] := by
  unfold dirname
  have : p.reverse.dropWhile (fun c => decide (c ≠ '/')) = [] := by
    apply dropWhile_all
    intro c hc
    have : c ≠ '/' := fun e => h (by rw [← e]; simpa using hc)
    simpa using this
  rw [this]; rfl

theorem dirname_from (dir : List Str) (p : Str) : along dir (dirname p) = directoryFrom dir p := by
  by_cases h : '/' ∈ p
  · obtain ⟨d, b, k, h1, h2, h3⟩ := dirname_spec p h
    rw [directoryFrom_eq h1 h2, ← along_slash dir d, h3, along_slashes]
  · rw [dirname_bare h, along_nil]
    unfold directoryFrom
    rw [segments_plain h]
    rfl

theorem dirname_relative {p : Str} (h : p.head? ≠ some '/') : (dirname p).head? ≠ some '/' := by
  by_cases hs : '/' ∈ p
  · obtain ⟨d, b, k, h1, h2, h3⟩ := dirname_spec p hs
    cases hx : dirname p with
    | nil => simp
    | cons c t =>
      rw [hx] at h3
      have hpre : (d ++ ['/']) ++ b = p := by rw [h1]; simp
      rw [h3] at hpre
      rw [← hpre] at h
      simpa using h
  · rw [dirname_bare hs]; simp

theorem along_join_any (dir : List Str) (a b : Str) (hb : b.head? ≠ some '/') : along dir (join a b) = along (along dir a) b := by
  by_cases ha : a = []
  · subst ha
    unfold join
    rw [if_neg hb]
    simp [along_nil]
  · exact along_join dir a b hb ha

theorem join_relative {a b : Str} (ha : a.head? ≠ some '/') (hb : b.head? ≠ some '/') : (join a b).head? ≠ some '/' := by
  unfold join
  rw [if_neg hb]
  cases a with
  | nil => simpa using hb
  | cons c a => split <;> simpa using ha

end Auxi.Paths
