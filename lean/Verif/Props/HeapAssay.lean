import Verif.Props.PsdHeap
import Verif.Props.SlurryHeap
import Verif.Props.StreamHeap

/-! # C119-C121: `add_assay` on materials that are objects does what it does on materials that are values

`C54` says what `add_assay` does to a material as a value.  Here the material holds references to arrays. -/
namespace Auxi.HeapAssay.Props
open Auxi Auxi.ArrHeap Auxi.ArrHeap.Spec

/-- What a call that returns nothing gives. -/
def out : Res Unit → Out
  | .ok _ => .ok none
  | .error e => .error e

theorem names {I X α : Type} (h : Heap I X α) (l : List (Str × Nat)) : (l.map fun e => (e.1, h.read e.2)).map (·.1) = l.map (·.1) := by
  rw [List.map_map]; rfl

/-- **C119 (psd, `add_assay`)**: on a material `m` the call gives the outcome, and makes the material, that `add_assay` gives with the contents of the array; other materials keep
theirs, and packages keep their contents. -/
theorem C119_psd_add (h : PsdHeap.PHeap) (m : Nat) (name : Str) (a : Nat) (M : Psd.Material) (hM : PsdHeap.Spec.mat (view h) m = some M) :
    (PsdHeap.step h (.addAssay m name a)).1 = out (M.addAssay name (.array (h.read a))).1 ∧
    PsdHeap.Spec.mat (view (PsdHeap.step h (.addAssay m name a)).2) m = some (M.addAssay name (.array (h.read a))).2 ∧
    (∀ k ≠ m, PsdHeap.Spec.mat (view (PsdHeap.step h (.addAssay m name a)).2) k = PsdHeap.Spec.mat (view h) k) ∧
    ∀ j, contents (PsdHeap.step h (.addAssay m name a)).2 j = contents h j := by
  unfold PsdHeap.Spec.mat at hM
  simp only [view, List.getElem?_map] at hM
  cases e : h.mats[m]? with
  | none => rw [e] at hM; cases hM
  | some o =>
    rw [e] at hM
    simp only [Option.map_some, Option.some.injEq] at hM
    subst hM
    simp only [PsdHeap.step, Heap.addAssay, e, Psd.Material.addAssay, names]
    split
    · exact ⟨rfl, by simp [PsdHeap.Spec.mat, view, e], fun _ _ => rfl, fun _ => rfl⟩
    · split
      · exact ⟨rfl, by simp [PsdHeap.Spec.mat, view, e], fun _ _ => rfl, fun _ => rfl⟩
      · refine ⟨rfl, ?_, fun k hk => ?_, fun _ => rfl⟩
        · simp [PsdHeap.Spec.mat, view, ArrHeap.Proofs.lt_of_get e, Heap.read]
        · simp only [PsdHeap.Spec.mat, view, List.getElem?_map, List.getElem?_set_ne (Ne.symm hk)]; rfl

/-- **C119 (slurry, `add_assay`)**. -/
theorem C119_slurry_add (h : SlurryHeap.SHeap) (m : Nat) (name : Str) (d w : Option ℚ) (a : Nat) (M : Slurry.Material) (hM : SlurryHeap.Spec.mat (view h) m = some M) :
    (SlurryHeap.step h (.addAssay m name d w a)).1 = out (M.addAssay name d w (.array (h.read a))).1 ∧
    SlurryHeap.Spec.mat (view (SlurryHeap.step h (.addAssay m name d w a)).2) m = some (M.addAssay name d w (.array (h.read a))).2 ∧
    (∀ k ≠ m, SlurryHeap.Spec.mat (view (SlurryHeap.step h (.addAssay m name d w a)).2) k = SlurryHeap.Spec.mat (view h) k) ∧
    ∀ j, contents (SlurryHeap.step h (.addAssay m name d w a)).2 j = contents h j := by
  unfold SlurryHeap.Spec.mat at hM
  simp only [view, List.getElem?_map] at hM
  cases e : h.mats[m]? with
  | none => rw [e] at hM; cases hM
  | some o =>
    rw [e] at hM
    simp only [Option.map_some, Option.some.injEq] at hM
    subst hM
    have hl := ArrHeap.Proofs.lt_of_get e
    simp only [SlurryHeap.step, SlurryHeap.addAssay, e, Slurry.Material.addAssay, Psd.Material.addAssay, names]
    cases d with
    | none => exact ⟨rfl, by simp [SlurryHeap.Spec.mat, view, e], fun _ _ => rfl, fun _ => rfl⟩
    | some d =>
      cases w with
      | none =>
        refine ⟨rfl, ?_, fun k hk => ?_, fun _ => rfl⟩
        · simp [SlurryHeap.Spec.mat, view, hl, Heap.read]
        · simp only [SlurryHeap.Spec.mat, view, List.getElem?_map, List.getElem?_set_ne (Ne.symm hk)]; rfl
      | some w =>
        have hr : ∀ (x : List (MatObj SlurryHeap.Info)), ({ h with mats := x } : SlurryHeap.SHeap).read = h.read := fun _ => rfl
        simp only [Heap.addAssay, List.set_set, List.getElem?_set_self hl, hr]
        split
        · refine ⟨rfl, ?_, fun k hk => ?_, fun _ => rfl⟩
          · simp [SlurryHeap.Spec.mat, view, hl, Heap.read]
          · simp only [SlurryHeap.Spec.mat, view, List.getElem?_map, List.getElem?_set_ne (Ne.symm hk)]; rfl
        · split
          · refine ⟨rfl, ?_, fun k hk => ?_, fun _ => rfl⟩
            · simp [SlurryHeap.Spec.mat, view, hl, Heap.read]
            · simp only [SlurryHeap.Spec.mat, view, List.getElem?_map, List.getElem?_set_ne (Ne.symm hk)]; rfl
          · refine ⟨rfl, ?_, fun k hk => ?_, fun _ => rfl⟩
            · simp [SlurryHeap.Spec.mat, view, hl, Heap.read]
            · simp only [SlurryHeap.Spec.mat, view, List.getElem?_map, List.getElem?_set_ne (Ne.symm hk)]; rfl

/-- **C120 (`add_assay`)**: thermochemical materials of packages. -/
theorem C120_add (db : Thermo.Db) (h : ThermoHeap.THeap) (m : Nat) (name : Str) (a : Nat) (M : Thermo.Material) (hM : ThermoHeap.Spec.mat (view h) m = some M) :
    (ThermoHeap.step db h (.addAssay m name a)).1 = out (M.addAssay name (.array (h.read a))).1 ∧
    ThermoHeap.Spec.mat (view (ThermoHeap.step db h (.addAssay m name a)).2) m = some (M.addAssay name (.array (h.read a))).2 ∧
    (∀ k ≠ m, ThermoHeap.Spec.mat (view (ThermoHeap.step db h (.addAssay m name a)).2) k = ThermoHeap.Spec.mat (view h) k) ∧
    ∀ j, contents (ThermoHeap.step db h (.addAssay m name a)).2 j = contents h j := by
  unfold ThermoHeap.Spec.mat at hM
  simp only [view, List.getElem?_map] at hM
  cases e : h.mats[m]? with
  | none => rw [e] at hM; cases hM
  | some o =>
    rw [e] at hM
    simp only [Option.map_some, Option.some.injEq] at hM
    subst hM
    simp only [ThermoHeap.step, Heap.addAssay, e, Thermo.Material.addAssay, names]
    split
    · exact ⟨rfl, by simp [ThermoHeap.Spec.mat, view, e], fun _ _ => rfl, fun _ => rfl⟩
    · split
      · exact ⟨rfl, by simp [ThermoHeap.Spec.mat, view, e], fun _ _ => rfl, fun _ => rfl⟩
      · refine ⟨rfl, ?_, fun k hk => ?_, fun _ => rfl⟩
        · simp [ThermoHeap.Spec.mat, view, ArrHeap.Proofs.lt_of_get e, Heap.read]
        · simp only [ThermoHeap.Spec.mat, view, List.getElem?_map, List.getElem?_set_ne (Ne.symm hk)]; rfl

/-- **C121 (`add_assay`)**: thermochemical materials of streams. -/
theorem C121_add (db : Thermo.Db) (h : StreamHeap.SHeap) (m : Nat) (name : Str) (a : Nat) (M : Thermo.Material) (hM : StreamHeap.Spec.mat (view h) m = some M) :
    (StreamHeap.step db h (.addAssay m name a)).1 = out (M.addAssay name (.array (h.read a))).1 ∧
    StreamHeap.Spec.mat (view (StreamHeap.step db h (.addAssay m name a)).2) m = some (M.addAssay name (.array (h.read a))).2 ∧
    (∀ k ≠ m, StreamHeap.Spec.mat (view (StreamHeap.step db h (.addAssay m name a)).2) k = StreamHeap.Spec.mat (view h) k) ∧
    ∀ j, contents (StreamHeap.step db h (.addAssay m name a)).2 j = contents h j := by
  unfold StreamHeap.Spec.mat at hM
  simp only [view, List.getElem?_map] at hM
  cases e : h.mats[m]? with
  | none => rw [e] at hM; cases hM
  | some o =>
    rw [e] at hM
    simp only [Option.map_some, Option.some.injEq] at hM
    subst hM
    simp only [StreamHeap.step, Heap.addAssay, e, Thermo.Material.addAssay, names]
    split
    · exact ⟨rfl, by simp [StreamHeap.Spec.mat, view, e], fun _ _ => rfl, fun _ => rfl⟩
    · split
      · exact ⟨rfl, by simp [StreamHeap.Spec.mat, view, e], fun _ _ => rfl, fun _ => rfl⟩
      · refine ⟨rfl, ?_, fun k hk => ?_, fun _ => rfl⟩
        · simp [StreamHeap.Spec.mat, view, ArrHeap.Proofs.lt_of_get e, Heap.read]
        · simp only [StreamHeap.Spec.mat, view, List.getElem?_map, List.getElem?_set_ne (Ne.symm hk)]; rfl

/-- The hypotheses are met; a name that is taken is refused although the density has been overwritten. -/
example : (SlurryHeap.Spec.mat (view SlurryHeap.Props.ex) 0).isSome = true ∧
    (SlurryHeap.step SlurryHeap.Props.ex (.addAssay 0 "A".toList (some 9) (some 0) 1)).1 = .error .exception ∧
    (SlurryHeap.step SlurryHeap.Props.ex (.addAssay 0 "B".toList none (some 0) 1)).1 = .error .exception := by
  refine ⟨by decide +kernel, by decide +kernel, by decide +kernel⟩

example : (PsdHeap.step PsdHeap.Props.ex (.addAssay 0 "B".toList 1)).1 = .ok none ∧ (PsdHeap.step PsdHeap.Props.ex (.addAssay 0 "A".toList 1)).1 = .error .exception := by
  refine ⟨by decide +kernel, by decide +kernel⟩

end Auxi.HeapAssay.Props
