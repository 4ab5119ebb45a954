import Verif.Props.FileFormat
import Verif.Proofs.Stoich2

/-!
# C95: the numbers of a material file, concrete files, files that are not read as written
-/
namespace Auxi.FileFormat.Props
open Auxi.FileFormat Auxi.FileFormat.Spec

theorem isDigit_of {c : Char} (h : 48 ≤ c.toNat ∧ c.toNat ≤ 57) : isDigit c = true := by
  unfold isDigit; simp [h.1, h.2]

theorem digit_not_space {c : Char} (h : 48 ≤ c.toNat ∧ c.toNat ≤ 57) : isSpace c = false := by
  unfold isSpace
  have h1 := h.1; have h2 := h.2
  simp only [Bool.or_eq_false_iff, Bool.and_eq_false_iff, beq_eq_false_iff_ne, ne_eq, decide_eq_false_iff_not]
  omega

theorem digits_eq (d : Str) : digits d = Stoich.Spec.value d := Stoich.numVal_eq d

theorem takeWhile_digits {d : Str} (h : Digits d) {t : Str} (ht : t.takeWhile isDigit = []) : (d ++ t).takeWhile isDigit = d ∧
    (d ++ t).dropWhile isDigit = t := by
  induction d with
  | nil =>
    refine ⟨ht, ?_⟩
    rw [List.nil_append]
    cases t with
    | nil => rfl
    | cons c t =>
      rw [List.takeWhile_cons] at ht
      rw [List.dropWhile_cons]
      split at ht
      · simp at ht
      · rename_i hc; rw [if_neg hc]
  | cons c d ih =>
    have hc := isDigit_of (h c (by simp))
    obtain ⟨h1, h2⟩ := ih (fun x hx => h x (by simp [hx]))
    rw [List.cons_append, List.takeWhile_cons, List.dropWhile_cons, if_pos hc, if_pos hc, h1]
    exact ⟨rfl, h2⟩

theorem expSign_spec (s : Option Bool) {x : Char} {d : Str} (h1 : x ≠ '-') (h2 : x ≠ '+') :
    expSign (signText s ++ x :: d) = (s == some true, x :: d) := by
  match s with
  | none => change expSign (x :: d) = _; rw [expSign, if_neg h1, if_neg h2]; rfl
  | some true => rfl
  | some false => rfl

theorem exponent_spec (e : Option (Char × Option Bool × Str)) (h : ∀ c s d, e = some (c, s, d) → (c = 'e' ∨ c = 'E') ∧ d ≠ [] ∧ Digits d) :
    exponent (expText e) = some (expValue e) ∧ (expText e).takeWhile isDigit = [] ∧ fraction (expText e) = ([], expText e) := by
  match e, h with
  | none, _ => exact ⟨rfl, rfl, rfl⟩
  | some (c, s, d), h =>
    obtain ⟨hc, hd, hdig⟩ := h c s d rfl
    have hall : d.all isDigit = true := by rw [List.all_eq_true]; exact fun x hx => isDigit_of (hdig x hx)
    obtain ⟨x, d', rfl⟩ := List.exists_cons_of_ne_nil hd
    have hx := hdig x (by simp)
    have n1 : x ≠ '-' := by rintro rfl; exact absurd hx.1 (by decide)
    have n2 : x ≠ '+' := by rintro rfl; exact absurd hx.1 (by decide)
    refine ⟨?_, ?_, ?_⟩
    · change exponent (c :: (signText s ++ x :: d')) = some ((if s = some true then -1 else 1) * (Stoich.Spec.value (x :: d') : ℤ))
      rw [exponent, if_pos hc, expSign_spec s n1 n2]
      simp only [hall, ne_eq, hd, not_false_eq_true, and_self, if_true, digits_eq]
      by_cases hs : s = some true
      · subst hs; simp
      · have : (s == some true) = false := by simpa using hs
        rw [this, if_neg hs]; simp
    · change (c :: (signText s ++ x :: d')).takeWhile isDigit = []
      rw [List.takeWhile_cons, if_neg]
      rcases hc with rfl | rfl <;> decide
    · change fraction (c :: (signText s ++ x :: d')) = ([], c :: (signText s ++ x :: d'))
      rw [fraction, if_neg]
      rcases hc with rfl | rfl <;> decide

theorem unsigned_spec {i : Str} {f : Option Str} {e : Option (Char × Option Bool × Str)} (hi : Digits i) (hf : ∀ g, f = some g → Digits g)
    (h0 : i ≠ [] ∨ ∃ g, f = some g ∧ g ≠ []) (he : ∀ c s d, e = some (c, s, d) → (c = 'e' ∨ c = 'E') ∧ d ≠ [] ∧ Digits d) :
    unsigned (i ++ fracText f ++ expText e) =
      some ((Stoich.Spec.value (i ++ f.getD []) : ℚ) * (10 : ℚ) ^ (expValue e - ((f.getD []).length : ℤ))) := by
  obtain ⟨h1, h2, h3⟩ := exponent_spec e he
  cases f with
  | none =>
    have hi0 : i ≠ [] := by
      rcases h0 with h | ⟨g, hg, _⟩
      · exact h
      · cases hg
    obtain ⟨g1, g2⟩ := takeWhile_digits hi h2
    unfold unsigned
    simp only [fracText, List.append_nil, Option.getD_none, List.length_nil, g1, g2, h3, hi0, false_and, if_false, h1, digits_eq]
    rfl
  | some g =>
    have hg := hf g rfl
    have e1 : i ++ fracText (some g) ++ expText e = i ++ ('.' :: (g ++ expText e)) := by simp [fracText]
    obtain ⟨g1, g2⟩ := takeWhile_digits hi (t := '.' :: (g ++ expText e)) (by rw [List.takeWhile_cons, if_neg (by decide)])
    obtain ⟨k1, k2⟩ := takeWhile_digits hg h2
    have hne : ¬ (i = [] ∧ g = []) := by
      rintro ⟨rfl, rfl⟩
      rcases h0 with h | ⟨g', hg', h⟩
      · exact h rfl
      · simp only [Option.some.injEq] at hg'; exact h hg'.symm
    have hfr : fraction ('.' :: (g ++ expText e)) = (g, expText e) := by rw [fraction, if_pos rfl, k1, k2]
    rw [e1]
    unfold unsigned
    simp only [g1, g2, hfr, Option.getD_some]
    rw [if_neg hne, h1, digits_eq]
    rfl

/-- **C95 (numbers).** Every number in decimal notation is an item and is read as the number it denotes. -/
theorem C95_number (n : Numeral) (h : n.Proper) : Item n.text ∧ pyFloat n.text = .ok n.value := by
  have hs : ∀ s, ∀ c ∈ signText s, isSpace c = false := by
    intro s c hc
    match s, hc with
    | none, hc => simp [signText] at hc
    | some true, hc => simp [signText] at hc; subst hc; decide
    | some false, hc => simp [signText] at hc; subst hc; decide
  have hhead : ∃ c t, n.int ++ fracText n.frac ++ expText n.exp = c :: t ∧ c ≠ '-' ∧ c ≠ '+' := by
    by_cases hi : n.int = []
    · rcases h.some_digit with h0 | ⟨f, hf, _⟩
      · exact absurd hi h0
      · exact ⟨'.', f ++ expText n.exp, by rw [hi, hf]; simp [fracText], by decide, by decide⟩
    · obtain ⟨x, d, hx⟩ := List.exists_cons_of_ne_nil hi
      have h48 := (h.int x (by rw [hx]; simp)).1
      rw [hx]
      refine ⟨x, _, by rw [List.cons_append, List.cons_append], ?_, ?_⟩
      · rintro rfl; exact absurd h48 (by decide)
      · rintro rfl; exact absurd h48 (by decide)
  have hu := unsigned_spec h.int h.frac h.some_digit h.exp
  obtain ⟨c, t, hb, n1, n2⟩ := hhead
  have hitem : Item n.text := by
    constructor
    · unfold Numeral.text; rw [hb]; simp
    · intro c hc
      unfold Numeral.text at hc
      simp only [List.mem_append] at hc
      rcases hc with hc | (hc | hc) | hc
      · exact hs _ c hc
      · exact digit_not_space (h.int c hc)
      · cases hf : n.frac with
        | none => rw [hf] at hc; simp [fracText] at hc
        | some f =>
          rw [hf] at hc
          simp only [fracText, List.mem_cons] at hc
          rcases hc with rfl | hc
          · decide
          · exact digit_not_space (h.frac f hf c hc)
      · cases he : n.exp with
        | none => rw [he] at hc; simp [expText] at hc
        | some e =>
          obtain ⟨x, s, d⟩ := e
          obtain ⟨g1, g2, g3⟩ := h.exp x s d he
          rw [he] at hc
          simp only [expText, List.mem_cons, List.mem_append] at hc
          rcases hc with rfl | hc | hc
          · rcases g1 with rfl | rfl <;> decide
          · exact hs _ c hc
          · exact digit_not_space (g3 c hc)
  refine ⟨hitem, ?_⟩
  have hstrip : strip n.text = n.text := by
    have := strip_trim (a := []) (b := []) (by simp) (by simp) (item_trim hitem)
    simpa using this
  unfold pyFloat
  have hes : expSign n.text = (n.sign == some true, n.int ++ fracText n.frac ++ expText n.exp) := by
    unfold Numeral.text; rw [hb]; exact expSign_spec n.sign n1 n2
  simp only [hstrip, hes, hu]
  unfold Numeral.value
  by_cases hsg : n.sign = some true
  · simp [hsg]
  · have : (n.sign == some true) = false := by simpa using hsg
    simp [this, hsg]

instance (s : Str) : Decidable (Digits s) := inferInstanceAs (Decidable (∀ c ∈ s, _))

/-- The hypothesis of `C95_number` is met by numbers as in the documented files. -/
example : Numeral.Proper ⟨none, "307".toList, some "2".toList, some ('E', some true, "3".toList)⟩ ∧
    (⟨none, "307".toList, some "2".toList, some ('E', some true, "3".toList)⟩ : Numeral).text = "307.2E-3".toList :=
  ⟨⟨by decide, by intro f hf; simp only [Option.some.injEq] at hf; subst hf; decide, Or.inl (by decide),
    by intro c s d h; simp only [Option.some.injEq, Prod.mk.injEq] at h; obtain ⟨rfl, rfl, rfl⟩ := h; decide⟩, by decide⟩

end Auxi.FileFormat.Props
