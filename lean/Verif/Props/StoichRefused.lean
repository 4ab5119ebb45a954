import Verif.Props.Stoich

/-! # C40: how texts that are no formulae are refused -/
namespace Auxi.Stoich.Props
open Auxi Auxi.Stoich Auxi.Stoich.Spec

mutual
theorem visitPart_error : ∀ (p : Part) (e : PyErr), visitPart p = .error e → e = .keyError
  | .elem s, e, h => by
    simp only [visitPart, visitElement] at h
    split at h
    · cases h
    · cases h; rfl
  | .elemN s d, e, h => by
    simp only [visitPart, visitElement] at h
    split at h
    · rename_i e' he
      split at he
      · cases he
      · cases he; cases h; rfl
    · cases h
  | .grp b n, e, h => by
    simp only [visitPart] at h
    split at h
    · rename_i e' he; cases h; exact visitParts_error b e he
    · cases h
theorem visitParts_error : ∀ (ps : List Part) (e : PyErr), visitParts ps = .error e → e = .keyError
  | [], e, h => by simp only [visitParts] at h; cases h
  | p :: ps, e, h => by
    simp only [visitParts] at h
    split at h
    · rename_i e' he; cases h; exact visitPart_error p e he
    · split at h
      · rename_i e' he; cases h; exact visitParts_error ps e he
      · cases h
end

theorem visitTree_error (t : Tree) (e : PyErr) (h : visitTree t = .error e) : e = .keyError := by
  unfold visitTree at h
  split at h
  · rename_i e' he; cases h; exact visitParts_error _ e he
  · split at h
    · cases h
    · split at h
      · rename_i e' he; cases h; exact visitParts_error _ e he
      · cases h

theorem parse_refused (s : Str) :
    ((¬ ∃ t, TreeOK t ∧ text t = s) → parseCompound s = .error .parseError) ∧ (∀ t, TreeOK t → text t = s → (∃ e ∈ symbols t, ¬ Known e) → parseCompound s = .error .keyError) := by
  constructor
  · intro h
    unfold parseCompound
    cases hp : parseTree s with
    | none => rfl
    | some t => exact absurd ⟨t, parseTree_sound s t hp⟩ h
  · rintro t ht rfl ⟨e, he, hn⟩
    have hc : ¬ ∃ c, parseCompound (text t) = .ok c := by
      rw [C40_accepts_iff]
      rintro ⟨t', ht', e', hk⟩
      have := parseTree_text t' ht'
      rw [e', parseTree_text t ht] at this
      cases this
      exact hn (hk e he)
    cases hp : parseCompound (text t) with
    | ok c => exact absurd ⟨c, hp⟩ hc
    | error x =>
      unfold parseCompound at hp
      rw [parseTree_text t ht] at hp
      rw [visitTree_error t x hp]

theorem refuse_all {s : Str} {x : PyErr} (h0 : s ≠ []) (h : parseCompound (strip s) = .error x) (e : Str) (es : List Str) (m : ℚ) :
    molarMass s = .error x ∧ mass s m = .error x ∧ amount s m = .error x ∧ coefficient s e = .error x ∧ coefficients s es = .error x ∧ elementMassFraction s e = .error x ∧
      elementMassFractions s (e :: es) = .error x ∧ ∀ src, convertCompound m src s e = .error x := by
  have h1 : molarMass s = .error x := by unfold molarMass; rw [if_neg h0, h]; rfl
  have h2 : coefficient s e = .error x := by unfold coefficient; rw [h]; rfl
  have h3 : elementMassFraction s e = .error x := by unfold elementMassFraction; rw [h2]
  refine ⟨h1, by unfold mass; rw [h1]; rfl, by unfold amount; rw [h1], h2, by unfold coefficients; rw [h]; rfl, h3, ?_, fun src => ?_⟩
  · unfold elementMassFractions; rw [h3]
  · unfold convertCompound; rw [h3]

/-- **C40 (refused).** Let a text, between blanks that do not matter, not be written like a formula: then every function that takes a compound raises the parser's error.  If it is written like a formula
but names a symbol that is not in the periodic table, every one raises the error of the look-up. -/
theorem C40_refused (a s b : Str) (ha : Blank a) (hb : Blank b) (h0 : s ≠ []) (h1 : ∀ c, s.head? = some c → isSpace c = false) (h2 : ∀ c, s.getLast? = some c → isSpace c = false) (e : Str) (es : List Str) (m : ℚ) :
    ((¬ ∃ t, TreeOK t ∧ text t = s) → ∀ x, x = PyErr.parseError → molarMass (a ++ s ++ b) = .error x ∧ mass (a ++ s ++ b) m = .error x ∧ amount (a ++ s ++ b) m = .error x ∧
      coefficient (a ++ s ++ b) e = .error x ∧ coefficients (a ++ s ++ b) es = .error x ∧ elementMassFraction (a ++ s ++ b) e = .error x ∧ elementMassFractions (a ++ s ++ b) (e :: es) = .error x ∧
      (∀ src, convertCompound m src (a ++ s ++ b) e = .error x) ∧ elements [s] = .error x) ∧
    (∀ t, TreeOK t → text t = s → (∃ e ∈ symbols t, ¬ Known e) → ∀ x, x = PyErr.keyError → molarMass (a ++ s ++ b) = .error x ∧ mass (a ++ s ++ b) m = .error x ∧ amount (a ++ s ++ b) m = .error x ∧
      coefficient (a ++ s ++ b) e = .error x ∧ coefficients (a ++ s ++ b) es = .error x ∧ elementMassFraction (a ++ s ++ b) e = .error x ∧ elementMassFractions (a ++ s ++ b) (e :: es) = .error x ∧
      (∀ src, convertCompound m src (a ++ s ++ b) e = .error x) ∧ elements [s] = .error x) := by
  have k : strip (a ++ s ++ b) = s := by
    apply strip_blank ha hb _ _ h0
    · cases s with
      | nil => exact absurd rfl h0
      | cons c s => rintro d l hd; exact h1 d (by rw [hd]; rfl)
    · intro d l hd
      exact h2 d (by rw [← List.head?_reverse, hd]; rfl)
  have hne : a ++ s ++ b ≠ [] := by simp [h0]
  constructor
  · rintro h x rfl
    have hp := (parse_refused s).1 h
    obtain ⟨r1, r2, r3, r4, r5, r6, r7, r8⟩ := refuse_all hne (by rw [k]; exact hp) e es m
    exact ⟨r1, r2, r3, r4, r5, r6, r7, r8, by unfold elements; rw [hp]⟩
  · rintro t ht hs h x rfl
    have hp := (parse_refused s).2 t ht hs h
    obtain ⟨r1, r2, r3, r4, r5, r6, r7, r8⟩ := refuse_all hne (by rw [k]; exact hp) e es m
    exact ⟨r1, r2, r3, r4, r5, r6, r7, r8, by unfold elements; rw [hp]⟩

/-- Neither `fe2` nor `Fe2O3)` is written like a formula; `Xx2O` is, and names no element. -/
example : molarMass "fe2".toList = .error .parseError ∧ molarMass "Fe2O3)".toList = .error .parseError ∧ molarMass " Xx2O ".toList = .error .keyError ∧
    (¬ ∃ t, TreeOK t ∧ text t = "fe2".toList) ∧ TreeOK ⟨[.elemN "Xx".toList "2".toList, .elem "O".toList], none, none⟩ ∧ ¬ Known "Xx".toList := by
  refine ⟨by decide +kernel, by decide +kernel, by decide +kernel, ?_, ?_, ?_⟩
  · rintro ⟨t, h⟩
    rw [← C40_parse_iff] at h
    have : parseTree "fe2".toList = none := by decide +kernel
    rw [this] at h; cases h
  · have x : Symbol "Xx".toList := ⟨'X', ['x'], rfl, by unfold Upper; decide, by unfold Lower; decide⟩
    have o : Symbol "O".toList := ⟨'O', [], rfl, by unfold Upper; decide, by simp⟩
    refine ⟨⟨by simp, ?_⟩, by simp, by simp⟩
    simp only [PartsOK, PartOK, and_true]
    exact ⟨⟨x, by decide, by unfold Digit; decide⟩, o⟩
  · unfold Known; decide +kernel

end Auxi.Stoich.Props
