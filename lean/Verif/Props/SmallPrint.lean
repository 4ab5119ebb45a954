import Verif.Props.Stoich
import Verif.Props.ThermoMore
import Verif.ThermoStream

/-!
# Small print: lists of coefficients (C40), assays that do not exist (C65), which assays are coal (C67)
-/
namespace Auxi.Stoich.Props
open Auxi Auxi.Stoich

/-- **C40 (lists).** `stoichiometry_coefficients` gives, in the order of the elements asked for, what `stoichiometry_coefficient` gives for each. -/
theorem C40_coefficients (s : Str) (es : List Str) (l : List ℚ) :
    coefficients s es = .ok l ↔ (∃ c, parseCompound (strip s) = .ok c) ∧ List.Forall₂ (fun e x => coefficient s e = .ok x) es l := by
  unfold coefficients coefficient
  cases h : parseCompound (strip s) with
  | error x => simp [Except.map]
  | ok c =>
    simp only [Except.map, Except.ok.injEq, exists_eq', true_and]
    constructor
    · rintro rfl
      rw [List.forall₂_map_right_iff]
      exact List.forall₂_same.2 fun _ _ => rfl
    · intro hf
      induction hf with
      | nil => rfl
      | cons h _ ih => rw [List.map_cons, h, ih]

example : coefficients "Fe2O3".toList ["O".toList, "Fe".toList, "Al".toList] = .ok [3, 2, 0] := by decide +kernel

end Auxi.Stoich.Props

namespace Auxi.Thermo.Props
open Auxi Auxi.Thermo

/-- **C65 (no such assay).** The total of an assay that the material does not have, a package of it and a stream of it all raise `KeyError`. -/
theorem C65_unknown (db : Db) (m : Material) (name : Str) (h : m.assays.lookup name = none) (x P T : V) (normalise : Bool) :
    m.assayTotal name = .error .keyError ∧ m.createPackage db (some name) x P T normalise = .error .keyError ∧ m.createStream db (some name) x P T normalise = .error .keyError := by
  have h1 : m.assay name = .error .keyError := by unfold Material.assay; rw [h]
  have h2 : m.assayTotal name = .error .keyError := by unfold Material.assayTotal; rw [h1]; rfl
  have h3 : m.scaled name x normalise = .error .keyError := by
    unfold Material.scaled
    cases normalise
    · simp only [Bool.false_eq_true, if_false]; rw [h1]
    · simp only [if_true]; rw [h2]
  refine ⟨h2, ?_, ?_⟩
  · unfold Material.createPackage; dsimp only; rw [h3]
  · unfold Material.createStream; dsimp only; rw [h3]

/-- **C67 (which assays are coal).** An assay with custom properties is coal exactly if the material has the property `IsCoal` and its value for the assay is 1; in particular an assay without a
value is not. -/
theorem C67_marked (m : Material) (name : Str) (d : List (Str × ℝ)) (h : m.custom.lookup name = some d) :
    ∃ b, m.isCoal name = .ok b ∧ (b = true ↔ "IsCoal".toList ∈ m.customNames ∧ d.lookup "IsCoal".toList = some 1) := by
  unfold Material.isCoal
  by_cases hc : "IsCoal".toList ∈ m.customNames
  · rw [if_pos hc, h]
    refine ⟨_, rfl, ?_⟩
    cases hl : d.lookup "IsCoal".toList with
    | none => simp
    | some v => simpa using fun _ => hc
  · rw [if_neg hc]
    exact ⟨false, rfl, by simp only [Bool.false_eq_true, false_iff]; exact fun h => hc h.1⟩

/-- Three assays: marked, marked as not being coal, and without a mark. -/
noncomputable def marked : Material := { ident := 0, compounds := [], assays := [], elements := [], customNames := ["IsCoal".toList], custom := [("a".toList, [("IsCoal".toList, 1)]), ("b".toList, [("IsCoal".toList, 0)]), ("c".toList, [])] }

example : ∃ x y z, marked.isCoal "a".toList = .ok x ∧ marked.isCoal "b".toList = .ok y ∧ marked.isCoal "c".toList = .ok z ∧ x = true ∧ y ≠ true ∧ z ≠ true := by
  obtain ⟨x, h1, h2⟩ := C67_marked marked "a".toList _ rfl
  obtain ⟨y, h3, h4⟩ := C67_marked marked "b".toList _ rfl
  obtain ⟨z, h5, h6⟩ := C67_marked marked "c".toList _ rfl
  refine ⟨x, y, z, h1, h3, h5, h2.2 ⟨by simp [marked], by simp [List.lookup]⟩, fun h => ?_, fun h => ?_⟩
  · have := (h4.1 h).2
    simp [List.lookup] at this
  · have := (h6.1 h).2
    simp [List.lookup] at this

end Auxi.Thermo.Props
