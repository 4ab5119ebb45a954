import Verif.Props.Slags

/-!
# C81: what the slag models refuse

The slag models do not use their schemas; these are the errors of what they do with a state that a schema would refuse.
-/
namespace Auxi.Phys.Props
open Auxi.Phys
open Auxi.Stoich (CDict)

/-- The four slag models: by mole or by mass fractions, after Urbain or after Riboud. -/
noncomputable def slagModels : List (String × (State → Res ℝ)) :=
  [("x", urbainTx), ("y", urbainTy), ("x", fun st => (riboudTx st).1), ("y", fun st => (riboudTy st).1)]

/-- **C81 (slags, incomplete state).** Without a temperature, or without a composition under the name the model wants, each slag model raises `KeyError`; what else is given does not matter. -/
theorem C81_slag_missing (k : String) (f : State → Res ℝ) (hf : (k, f) ∈ slagModels) (st : State) (h : st.lookup "T".toList = none ∨ st.lookup k.toList = none) : f st = .error .keyError := by
  simp only [slagModels, List.mem_cons, Prod.mk.injEq, List.not_mem_nil, or_false] at hf
  rcases hf with ⟨rfl, rfl⟩ | ⟨rfl, rfl⟩ | ⟨rfl, rfl⟩ | ⟨rfl, rfl⟩
  · unfold urbainTx
    cases hT : st.lookup "T".toList with
    | none => rfl
    | some t => simp only [getDict, h.resolve_left (by rw [hT]; simp)]
  · unfold urbainTy
    cases hT : st.lookup "T".toList with
    | none => rfl
    | some t => simp only [getDict, h.resolve_left (by rw [hT]; simp)]
  · show (riboudTx st).1 = _
    unfold riboudTx
    cases hT : st.lookup "T".toList with
    | none => rfl
    | some t => rw [h.resolve_left (by rw [hT]; simp)]
  · show (riboudTy st).1 = _
    unfold riboudTy
    cases hT : st.lookup "T".toList with
    | none => rfl
    | some t => rw [getDict, h.resolve_left (by rw [hT]; simp)]

example : urbainTx [("T".toList, .num 1700)] = .error .keyError := C81_slag_missing "x" _ (by simp [slagModels]) _ (.inr rfl)

/-- **C81 (slags, no dictionary).** A composition that is not a dictionary raises `AttributeError`; only Riboud's model by mole fractions raises `TypeError` when it is a number. -/
theorem C81_slag_composition (st : State) (t : Val) (hT : st.lookup "T".toList = some t) :
    (∀ q, st.lookup "x".toList = some (.num q) → urbainTx st = .error .attributeError ∧ (riboudTx st).1 = .error .typeError) ∧
    (st.lookup "x".toList = some .other → urbainTx st = .error .attributeError ∧ (riboudTx st).1 = .error .attributeError) ∧
    ((∃ q, st.lookup "y".toList = some (.num q)) ∨ st.lookup "y".toList = some .other → urbainTy st = .error .attributeError ∧ (riboudTy st).1 = .error .attributeError) := by
  refine ⟨?_, ?_, ?_⟩
  · intro q h
    unfold urbainTx riboudTx getDict
    simp only [hT, h, and_self]
  · intro h
    unfold urbainTx riboudTx getDict
    simp only [hT, h, and_self]
  · rintro (⟨q, h⟩ | h)
    · unfold urbainTy riboudTy getDict
      simp only [hT, h, and_self]
    · unfold urbainTy riboudTy getDict
      simp only [hT, h, and_self]

example : (riboudTx [("T".toList, .num 1700), ("x".toList, .num 1)]).1 = .error .typeError := ((C81_slag_composition _ _ rfl).1 1 rfl).2

theorem atT_bad {f : ℝ → Res ℝ} {t : Val} (ht : ∀ T, t ≠ .num T) {v : ℝ} (h : f 1 = .ok v) : atT f t = .error .typeError := by
  unfold atT
  split
  · exact absurd rfl (ht _)
  · rw [h]

theorem atT_error {f : ℝ → Res ℝ} {t : Val} {e : PyErr} (h : ∀ T, f T = .error e) : atT f t = .error e := by
  unfold atT
  split
  · exact h _
  · rw [h]

/-- **C81 (slags, temperature).** If the temperature is no number, and the composition is one that has a viscosity, Urbain's and Riboud's models raise `TypeError`. -/
theorem C81_slag_temperature (st : State) (t : Val) (x : CDict) (ht : ∀ T, t ≠ .num T) (hT : st.lookup "T".toList = some t) (hx : st.lookup "x".toList = some (.dict x)) :
    ((∃ v, urbainTx (tx 1 x) = .ok v) → urbainTx st = .error .typeError) ∧ ((∃ v, (riboudTx (tx 1 x)).1 = .ok v) → (riboudTx st).1 = .error .typeError) := by
  constructor
  · rintro ⟨v, h⟩
    rw [urbainTx_eq] at h
    unfold urbainTx getDict
    simp only [hT, hx]
    exact atT_bad ht h
  · rintro ⟨v, h⟩
    rw [riboudTx_eq] at h
    unfold riboudTx
    simp only [hT, hx]
    exact atT_bad ht h

/-- **C81 (slags, mass fractions).** The same for the models by mass fractions, in terms of the mole fractions they stand for. -/
theorem C81_slag_temperature_mass (st : State) (t : Val) (x y : CDict) (ht : ∀ T, t ≠ .num T) (hT : st.lookup "T".toList = some t) (hy : st.lookup "y".toList = some (.dict y))
    (hxy : Stoich.amountFractions y = .ok x) :
    ((∃ v, urbainTx (tx 1 x) = .ok v) → urbainTy st = .error .typeError) ∧ ((∃ v, (riboudTx (tx 1 x)).1 = .ok v) → (riboudTy st).1 = .error .typeError) := by
  constructor
  · rintro ⟨v, h⟩
    rw [urbainTx_eq] at h
    unfold urbainTy getDict
    simp only [hT, hy, hxy]
    exact atT_bad ht h
  · rintro ⟨v, h⟩
    rw [riboudTx_eq] at h
    unfold riboudTy getDict
    simp only [hT, hy, hxy]
    exact atT_bad ht h

/-- A composition with a viscosity: lime. -/
example : urbainTx [("x".toList, .dict [("CaO".toList, 1)]), ("T".toList, .other)] = .error .typeError :=
  (C81_slag_temperature _ .other [("CaO".toList, 1)] (fun _ => by simp) rfl rfl).1
    (C84_urbain_defined (c := "CaO") one_ne_zero (by simp) (by simp [modifiers]) (by norm_num [entry, List.lookup]))

/-- **C85 (violated, also by a refused call).** Riboud's model changes the caller's dictionary even when the call is refused for its temperature. -/
theorem C85_refused_violated : ∃ (st : State) (x : CDict), (riboudTx st).1 = .error .typeError ∧ st.lookup "x".toList = some (.dict x) ∧
    (riboudTx st).2.lookup "x".toList ≠ some (.dict x) := by
  refine ⟨[("T".toList, .other), ("x".toList, .dict [("P2O5".toList, 1)])], [("P2O5".toList, 1)], ?_, rfl, ?_⟩
  · refine (C81_slag_temperature _ .other [("P2O5".toList, 1)] (fun _ => by simp) rfl rfl).2 ?_
    have : sumOf (riboudDict [("P2O5".toList, 1)]) cAll ≠ 0 := by decide +kernel
    rw [riboudTx_eq]
    unfold riboud
    simp only [if_neg this, if_neg (one_ne_zero (α := ℝ))]
    exact ⟨_, rfl⟩
  · intro h
    have e : riboudDict [("P2O5".toList, 1)] ≠ [("P2O5".toList, 1)] := by decide +kernel
    have h2 : some (Val.dict (riboudDict [("P2O5".toList, 1)])) = some (Val.dict [("P2O5".toList, 1)]) := h
    exact e (by simpa using h2)

end Auxi.Phys.Props
