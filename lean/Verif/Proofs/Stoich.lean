import Verif.Spec.Stoich
import Mathlib.Tactic.Ring
import Mathlib.Tactic.Linarith

/-!
# The formula parser: round trip
-/
namespace Auxi.Stoich
open Spec

theorem isUp_iff (c : Char) : isUp c = true ↔ Upper c := by
  simp only [isUp, decide_eq_true_eq, Upper, Char.le_def, UInt32.le_iff_toNat_le]; rfl
theorem isLow_iff (c : Char) : isLow c = true ↔ Lower c := by
  simp only [isLow, decide_eq_true_eq, Lower, Char.le_def, UInt32.le_iff_toNat_le]; rfl
theorem isDig_iff (c : Char) : isDig c = true ↔ Digit c := by
  simp only [isDig, decide_eq_true_eq, Digit, Char.le_def, UInt32.le_iff_toNat_le]; rfl
theorem isAlnum_iff (c : Char) : isAlnum c = true ↔ Upper c ∨ Lower c ∨ Digit c := by
  simp only [isAlnum, Bool.or_eq_true, isUp_iff, isLow_iff, isDig_iff, or_assoc]

/-- The text does not start with a character of the class. -/
def Stop (p : Char → Bool) (s : Str) : Prop := ∀ c r, s = c :: r → p c = false

theorem stop_nil (p : Char → Bool) : Stop p [] := by intro c r h; cases h
theorem stop_cons {p : Char → Bool} {c : Char} {r : Str} (h : p c = false) : Stop p (c :: r) := by
  intro c' r' e; cases e; exact h

theorem takeWhile_stop {p : Char → Bool} {x r : Str} (hx : ∀ c ∈ x, p c = true) (hr : Stop p r) :
    (x ++ r).takeWhile p = x ∧ (x ++ r).dropWhile p = r := by
  induction x with
  | nil =>
    cases r with
    | nil => simp
    | cons c r =>
      have := hr c r rfl
      simp [this]
  | cons a x ih =>
    have ha := hx a (by simp)
    have := ih (fun c hc => hx c (by simp [hc]))
    simp [ha, this.1, this.2]

theorem stop_dropWhile (p : Char → Bool) (s : Str) : Stop p (s.dropWhile p) := by
  induction s with
  | nil => exact stop_nil p
  | cons a s ih =>
    by_cases h : p a = true
    · simpa [h] using ih
    · simp only [Bool.not_eq_true] at h
      simp only [List.dropWhile_cons, h]
      exact stop_cons h

theorem all_takeWhile (p : Char → Bool) (s : Str) : ∀ c ∈ s.takeWhile p, p c = true := by
  induction s with
  | nil => simp
  | cons a s ih =>
    by_cases h : p a = true
    · simp only [List.takeWhile_cons, h, if_true, List.mem_cons]
      rintro c (rfl | hc)
      · exact h
      · exact ih c hc
    · simp [h]

/-! ### Elements and numbers -/

theorem pElement_write {s r : Str} (hs : Symbol s) (hr : Stop isLow r) : pElement (s ++ r) = some (s, r) := by
  obtain ⟨c, t, rfl, hc, ht⟩ := hs
  have := takeWhile_stop (p := isLow) (fun d hd => (isLow_iff d).2 (ht d hd)) hr
  simp [pElement, (isUp_iff c).2 hc, this.1, this.2]

theorem pElement_sound {s e r : Str} (h : pElement s = some (e, r)) : Symbol e ∧ s = e ++ r ∧ Stop isLow r := by
  cases s with
  | nil => simp [pElement] at h
  | cons c s =>
    simp only [pElement] at h
    split at h
    · rename_i hc
      simp only [Option.some.injEq, Prod.mk.injEq] at h
      obtain ⟨rfl, rfl⟩ := h
      refine ⟨⟨c, _, rfl, (isUp_iff c).1 hc, fun d hd => (isLow_iff d).1 (all_takeWhile _ _ d hd)⟩, ?_, stop_dropWhile _ _⟩
      simp [List.takeWhile_append_dropWhile]
    · cases h

theorem pNumber_write {d r : Str} (hd : Number d) (hr : Stop isDig r) : pNumber (d ++ r) = some (d, r) := by
  have := takeWhile_stop (p := isDig) (fun c hc => (isDig_iff c).2 (hd.2 c hc)) hr
  simp [pNumber, this.1, this.2, hd.1]

theorem pNumber_stop {r : Str} (hr : Stop isDig r) : pNumber r = none := by
  have := takeWhile_stop (p := isDig) (x := []) (by simp) hr
  simp only [List.nil_append] at this
  simp [pNumber, this.1]

theorem pNumber_sound {s d r : Str} (h : pNumber s = some (d, r)) : Number d ∧ s = d ++ r ∧ Stop isDig r := by
  simp only [pNumber] at h
  split at h
  · cases h
  · rename_i hne
    simp only [Option.some.injEq, Prod.mk.injEq] at h
    obtain ⟨rfl, rfl⟩ := h
    exact ⟨⟨hne, fun c hc => (isDig_iff c).1 (all_takeWhile _ _ c hc)⟩, (List.takeWhile_append_dropWhile).symm, stop_dropWhile _ _⟩

theorem pNumber_none {s : Str} (h : pNumber s = none) : Stop isDig s := by
  simp only [pNumber] at h
  split at h
  · rename_i h0
    have := stop_dropWhile isDig s
    have e := List.takeWhile_append_dropWhile (p := isDig) (l := s)
    rw [h0, List.nil_append] at e
    rwa [e] at this
  · cases h

theorem pOptNumber_write {n : Option Str} {r : Str} (hn : ∀ d, n = some d → Number d) (hr : Stop isDig r) :
    pOptNumber (n.getD [] ++ r) = (n, r) := by
  cases n with
  | none => simp [pOptNumber, pNumber_stop hr]
  | some d => simp [pOptNumber, pNumber_write (hn d rfl) hr]

theorem pOptNumber_sound (s : Str) : s = (pOptNumber s).1.getD [] ++ (pOptNumber s).2 ∧
    (∀ d, (pOptNumber s).1 = some d → Number d) ∧ Stop isDig (pOptNumber s).2 := by
  unfold pOptNumber
  cases h : pNumber s with
  | none => simp [pNumber_none h]
  | some x =>
    obtain ⟨d, r⟩ := x
    obtain ⟨h1, h2, h3⟩ := pNumber_sound h
    refine ⟨by simpa using h2, ?_, by simpa using h3⟩
    intro d' hd; simp only [Option.some.injEq] at hd; exact hd ▸ h1

/-! ### Parts -/

/-- The text does not start with a character that can continue a part or start one. -/
def EndOK (s : Str) : Prop := ∀ c r, s = c :: r → isUp c = false ∧ isLow c = false ∧ isDig c = false ∧ c ≠ '('
/-- The text does not start with a character that can continue a part. -/
def ContOK (s : Str) : Prop := Stop isLow s ∧ Stop isDig s

theorem EndOK.cont {s : Str} (h : EndOK s) : ContOK s := ⟨fun c r e => (h c r e).2.1, fun c r e => (h c r e).2.2.1⟩

theorem endOK_nil : EndOK [] := by intro c r h; cases h
theorem endOK_cons {c : Char} {r : Str} (h : isUp c = false ∧ isLow c = false ∧ isDig c = false ∧ c ≠ '(') : EndOK (c :: r) := by
  intro c' r' e; cases e; exact h

theorem up_not {c : Char} (h : isUp c = true) : isLow c = false ∧ isDig c = false ∧ c ≠ '(' := by
  simp only [isUp, isLow, isDig, decide_eq_true_eq, decide_eq_false_iff_not] at *
  have e1 : 'A'.toNat = 65 := rfl
  have e2 : 'Z'.toNat = 90 := rfl
  have e3 : 'a'.toNat = 97 := rfl
  have e4 : 'z'.toNat = 122 := rfl
  have e5 : '0'.toNat = 48 := rfl
  have e6 : '9'.toNat = 57 := rfl
  refine ⟨by omega, by omega, ?_⟩
  rintro rfl
  have e7 : '('.toNat = 40 := rfl
  omega

theorem partText_head {p : Part} (h : PartOK p) : ∃ c r, partText p = c :: r ∧ (isUp c = true ∨ c = '(') := by
  cases p with
  | elem s =>
    obtain ⟨c, t, rfl, hc, _⟩ := h
    exact ⟨c, t, rfl, .inl ((isUp_iff c).2 hc)⟩
  | elemN s d =>
    obtain ⟨⟨c, t, rfl, hc, _⟩, _⟩ := h
    exact ⟨c, t ++ d, rfl, .inl ((isUp_iff c).2 hc)⟩
  | grp b n => exact ⟨'(', _, rfl, .inr rfl⟩

theorem cont_of_head {c : Char} {r : Str} (h : isUp c = true ∨ c = '(') : ContOK (c :: r) := by
  rcases h with h | rfl
  · exact ⟨stop_cons (up_not h).1, stop_cons (up_not h).2.1⟩
  · exact ⟨stop_cons rfl, stop_cons rfl⟩

theorem partsText_cont {ps : List Part} {r : Str} (h : PartsOK ps) (hr : EndOK r) : ContOK (partsText ps ++ r) := by
  cases ps with
  | nil => exact hr.cont
  | cons p ps =>
    obtain ⟨c, t, e, hc⟩ := partText_head h.1
    simp only [partsText, e, List.cons_append]
    exact cont_of_head hc

/-- A part cannot start at a text that does not start with a capital or an opening bracket. -/
theorem pPart_end {n : Nat} {s : Str} (h : EndOK s) : pPart n s = none := by
  cases n with
  | zero => rfl
  | succ n =>
    cases s with
    | nil => simp [pPart, pSubElement, pElement]
    | cons c s =>
      have hc := h c s rfl
      have : pElement (c :: s) = none := by simp [pElement, hc.1]
      have h4 := hc.2.2.2
      simp only [pPart]
      simp only [pSubElement, this]
      split
      · rename_i x hx
        split at hx
        · rename_i h'; simp only [List.cons.injEq] at h'; exact absurd h'.1 h4
        · cases hx
      · rfl

theorem pParts_end {n : Nat} {s : Str} (h : EndOK s) : pParts n s = ([], s) := by
  cases n with
  | zero => rfl
  | succ n => simp [pParts, pPart_end h]

mutual
theorem pPart_write : ∀ (p : Part) (n : Nat) (r : Str), PartOK p → ContOK r → 2 * (partText p).length ≤ n →
    pPart n (partText p ++ r) = some (p, r)
  | .elem s, n, r, h, hr, hn => by
    obtain ⟨c, t, hs, hc⟩ := partText_head h
    have hup : isUp c = true := by
      obtain ⟨c', t', e, hc', _⟩ := h
      simp only [partText] at hs
      rw [e] at hs; simp only [List.cons.injEq] at hs; rw [← hs.1]; exact (isUp_iff c').2 hc'
    obtain ⟨m, rfl⟩ : ∃ m, n = m + 1 := ⟨n - 1, by simp only [hs, List.length_cons] at hn; omega⟩
    have e1 : pElement (s ++ r) = some (s, r) := pElement_write h hr.1
    have e2 : pSubElement (s ++ r) = none := by simp [pSubElement, e1, pNumber_stop hr.2]
    simp only [partText] at hs ⊢
    unfold pPart
    simp only [e1, e2]
    split
    · rename_i x hx
      split at hx
      · rename_i h'; rw [hs] at h'; simp only [List.cons_append, List.cons.injEq] at h'
        exact absurd h'.1 (up_not hup).2.2
      · cases hx
    · rfl
  | .elemN s d, n, r, h, hr, hn => by
    obtain ⟨hs0, hd⟩ := h
    obtain ⟨c, t, hs, hup, _⟩ := id hs0
    replace hup := (isUp_iff c).2 hup
    obtain ⟨m, rfl⟩ : ∃ m, n = m + 1 := ⟨n - 1, by simp only [partText, hs, List.length_cons, List.length_append] at hn; omega⟩
    have hlow : Stop isLow (d ++ r) := by
      obtain ⟨hd1, hd2⟩ := hd
      cases d with
      | nil => exact absurd rfl hd1
      | cons a d =>
        apply stop_cons
        have := (isDig_iff a).2 (hd2 a (by simp))
        simp only [isLow, isDig, decide_eq_true_eq, decide_eq_false_iff_not] at *
        have e3 : 'a'.toNat = 97 := rfl
        have e6 : '9'.toNat = 57 := rfl
        omega
    have e1 : pElement (s ++ (d ++ r)) = some (s, d ++ r) := pElement_write hs0 hlow
    have e2 : pSubElement (s ++ (d ++ r)) = some (.elemN s d, r) := by simp [pSubElement, e1, pNumber_write hd hr.2]
    simp only [partText, List.append_assoc]
    unfold pPart
    simp only [e2]
    split
    · rename_i x hx
      split at hx
      · rename_i h'; rw [hs] at h'; simp only [List.cons_append, List.cons.injEq] at h'
        exact absurd h'.1 (up_not hup).2.2
      · cases hx
    · rfl
  | .grp b num, n, r, h, hr, hn => by
    obtain ⟨hb, hok, hnum⟩ := h
    simp only [partText, List.length_cons, List.length_append] at hn
    obtain ⟨m, rfl⟩ : ∃ m, n = m + 1 := ⟨n - 1, by omega⟩
    have hpar : EndOK (')' :: (num.getD [] ++ r)) := endOK_cons (by decide)
    have e := pParts_write b m (')' :: (num.getD [] ++ r)) hok hpar (by omega)
    have e2 := pOptNumber_write (r := r) hnum hr.2
    cases b with
    | nil => exact absurd rfl hb
    | cons q b =>
      simp only [partText, List.cons_append, List.append_assoc]
      unfold pPart
      simp only [e, e2]
theorem pParts_write : ∀ (ps : List Part) (n : Nat) (r : Str), PartsOK ps → EndOK r → 2 * (partsText ps).length + 1 ≤ n →
    pParts n (partsText ps ++ r) = (ps, r)
  | [], n, r, _, hr, _ => by simpa [partsText] using pParts_end hr
  | p :: ps, n, r, h, hr, hn => by
    simp only [partsText, List.length_append] at hn
    have hpos : 0 < (partText p).length := by
      obtain ⟨c, t, e, _⟩ := partText_head h.1
      simp [e]
    obtain ⟨m, rfl⟩ : ∃ m, n = m + 1 := ⟨n - 1, by omega⟩
    have e1 := pPart_write p m (partsText ps ++ r) h.1 (partsText_cont h.2 hr) (by omega)
    have e2 := pParts_write ps m r h.2 hr (by omega)
    simp [partsText, pParts, e1, e2]
end

theorem parts_sound (n : Nat) :
    (∀ s p r, pPart n s = some (p, r) → PartOK p ∧ s = partText p ++ r) ∧
    (∀ s, PartsOK (pParts n s).1 ∧ s = partsText (pParts n s).1 ++ (pParts n s).2) := by
  induction n with
  | zero => exact ⟨by intro s p r h; simp [pPart] at h, by intro s; simp [pParts, PartsOK, partsText]⟩
  | succ n ih =>
    obtain ⟨ih1, ih2⟩ := ih
    refine ⟨?_, ?_⟩
    · intro s p r h
      unfold pPart at h
      simp only at h
      split at h
      · rename_i x hx
        cases h
        split at hx
        · rename_i r0
          split at hx
          · rename_i q qs r1 hq
            simp only [Option.some.injEq, Prod.mk.injEq] at hx
            obtain ⟨rfl, rfl⟩ := hx
            have a := ih2 r0
            rw [hq] at a
            obtain ⟨o1, o2, o3⟩ := pOptNumber_sound r1
            refine ⟨⟨by simp, a.1, o2⟩, ?_⟩
            simp only [partText, List.cons_append, List.append_assoc]
            rw [← o1, ← a.2]
          · cases hx
        · cases hx
      · split at h
        · rename_i x hx
          cases h
          simp only [pSubElement] at hx
          split at hx
          · cases hx
          · rename_i e r0 he
            split at hx
            · cases hx
            · rename_i d r1 hd
              simp only [Option.some.injEq, Prod.mk.injEq] at hx
              obtain ⟨rfl, rfl⟩ := hx
              obtain ⟨a1, a2, a3⟩ := pElement_sound he
              obtain ⟨b1, b2, b3⟩ := pNumber_sound hd
              exact ⟨⟨a1, b1⟩, by rw [a2, b2]; simp [partText]⟩
        · split at h
          · rename_i e r0 he
            simp only [Option.some.injEq, Prod.mk.injEq] at h
            obtain ⟨rfl, rfl⟩ := h
            obtain ⟨a1, a2, a3⟩ := pElement_sound he
            exact ⟨a1, a2⟩
          · cases h
    · intro s
      unfold pParts
      split
      · simp [PartsOK, partsText]
      · rename_i p r hp
        obtain ⟨a, b⟩ := ih1 _ _ _ hp
        have c := ih2 r
        refine ⟨⟨a, c.1⟩, ?_⟩
        simp only [partsText, List.append_assoc]
        rw [← c.2, ← b]

/-! ### Whole formulae -/

theorem pGroup_write {g : List Part} {n : Nat} {r : Str} (hg : g ≠ []) (h : PartsOK g) (hr : EndOK r)
    (hn : 2 * (partsText g).length + 1 ≤ n) : pGroup n (partsText g ++ r) = some (g, r) := by
  have := pParts_write g n r h hr hn
  cases g with
  | nil => exact absurd rfl hg
  | cons p ps => simp [pGroup, this]

theorem pGroup_sound {n : Nat} {s r : Str} {g : List Part} (h : pGroup n s = some (g, r)) :
    g ≠ [] ∧ PartsOK g ∧ s = partsText g ++ r := by
  have a := (parts_sound n).2 s
  unfold pGroup at h
  split at h
  · cases h
  · rename_i p ps r' hp
    cases h
    rw [hp] at a
    exact ⟨by simp, a⟩

theorem dottedText_end (t : Tree) : EndOK (dottedText t.dotted ++ phaseText t.phase) := by
  cases t.dotted with
  | none =>
    cases t.phase with
    | none => exact endOK_nil
    | some p => exact endOK_cons (by decide)
  | some x => exact endOK_cons (by decide)

theorem phaseText_end (p : Option Str) : EndOK (phaseText p) := by
  cases p with
  | none => exact endOK_nil
  | some p => exact endOK_cons (by decide)

theorem pOptPhase_write {p : Option Str} (h : ∀ q, p = some q → PhaseName q) : pOptPhase (phaseText p) = (p, []) := by
  cases p with
  | none => rfl
  | some q =>
    have hq := h q rfl
    have := takeWhile_stop (p := isAlnum) (x := q) (r := [']']) (fun c hc => (isAlnum_iff c).2 (hq.2 c hc)) (stop_cons (by decide))
    simp [pOptPhase, phaseText, this.1, this.2, hq.1]

theorem pOptPhase_sound (s : Str) : s = phaseText (pOptPhase s).1 ++ (pOptPhase s).2 ∧ ∀ q, (pOptPhase s).1 = some q → PhaseName q := by
  unfold pOptPhase
  split
  · rename_i r
    split
    · simp [phaseText]
    · rename_i hne
      split
      · rename_i r' hr
        refine ⟨?_, ?_⟩
        · have := List.takeWhile_append_dropWhile (p := isAlnum) (l := r)
          rw [hr] at this
          simp [phaseText, this]
        · intro q hq
          simp only [Option.some.injEq] at hq
          subst hq
          exact ⟨hne, fun c hc => (isAlnum_iff c).1 (all_takeWhile _ _ c hc)⟩
      · simp [phaseText]
  · simp [phaseText]

theorem head_stop_dig {g : List Part} (hg : g ≠ []) (h : PartsOK g) (r : Str) : Stop isDig (partsText g ++ r) := by
  cases g with
  | nil => exact absurd rfl hg
  | cons p ps =>
    obtain ⟨c, t, e, hc⟩ := partText_head h.1
    simp only [partsText, e, List.cons_append]
    exact (cont_of_head hc).2

theorem pOptDotted_write {d : Option (Option Str × List Part)} {n : Nat} {r : Str}
    (h : ∀ m b, d = some (m, b) → b ≠ [] ∧ PartsOK b ∧ ∀ x, m = some x → Number x) (hr : EndOK r)
    (hr' : ∀ x, r ≠ '.' :: x) (hn : 2 * (dottedText d).length + 1 ≤ n) : pOptDotted n (dottedText d ++ r) = (d, r) := by
  cases d with
  | none =>
    simp only [dottedText, List.nil_append, pOptDotted]
  | some x =>
    obtain ⟨m, b⟩ := x
    obtain ⟨hb, hok, hm⟩ := h m b rfl
    simp only [dottedText, List.length_cons, List.length_append] at hn
    have e1 := pOptNumber_write (r := partsText b ++ r) hm (head_stop_dig hb hok r)
    have e2 := pGroup_write (n := n) hb hok hr (by omega)
    simp [pOptDotted, dottedText, e1, e2]

theorem pOptDotted_sound (n : Nat) (s : Str) : s = dottedText (pOptDotted n s).1 ++ (pOptDotted n s).2 ∧
    ∀ m b, (pOptDotted n s).1 = some (m, b) → b ≠ [] ∧ PartsOK b ∧ ∀ x, m = some x → Number x := by
  unfold pOptDotted
  split
  · rename_i r
    obtain ⟨o1, o2, o3⟩ := pOptNumber_sound r
    split
    · rename_i g r' hg
      obtain ⟨a, b, c⟩ := pGroup_sound hg
      refine ⟨?_, ?_⟩
      · simp only [dottedText, List.cons_append, List.append_assoc]
        rw [← c, ← o1]
      · intro m b' e
        simp only [Option.some.injEq, Prod.mk.injEq] at e
        obtain ⟨rfl, rfl⟩ := e
        exact ⟨a, b, o2⟩
    · simp [dottedText]
  · simp [dottedText]

theorem parseTree_text (t : Tree) (h : TreeOK t) : parseTree (text t) = some t := by
  obtain ⟨⟨h1, h2⟩, h3, h4⟩ := h
  unfold parseTree
  have hl : (text t).length = (partsText t.group).length + ((dottedText t.dotted).length + (phaseText t.phase).length) := by
    simp [text]
  have e1 : pGroup (2 * (text t).length + 1) (text t) = some (t.group, dottedText t.dotted ++ phaseText t.phase) :=
    pGroup_write h1 h2 (dottedText_end t) (by omega)
  have e2 : pOptDotted (2 * (text t).length + 1) (dottedText t.dotted ++ phaseText t.phase) = (t.dotted, phaseText t.phase) := by
    apply pOptDotted_write h3 (phaseText_end _) _ (by omega)
    intro x hx
    cases hp : t.phase with
    | none => rw [hp] at hx; cases hx
    | some q => rw [hp] at hx; simp [phaseText] at hx
  simp only [e1, e2, pOptPhase_write h4]
  simp

theorem parseTree_sound (s : Str) (t : Tree) (h : parseTree s = some t) : TreeOK t ∧ text t = s := by
  unfold parseTree at h
  split at h
  · cases h
  · rename_i g r hg
    simp only at h
    split at h
    · rename_i hend
      obtain ⟨a1, a2, a3⟩ := pGroup_sound hg
      obtain ⟨b1, b2⟩ := pOptDotted_sound (2 * s.length + 1) r
      obtain ⟨c1, c2⟩ := pOptPhase_sound (pOptDotted (2 * s.length + 1) r).2
      cases h
      refine ⟨⟨⟨a1, a2⟩, b2, c2⟩, ?_⟩
      rw [hend, List.append_nil] at c1
      simp only [text]
      rw [← c1, ← b1, ← a3]
    · cases h

end Auxi.Stoich
