import Verif.Props.Printout

/-! # C122: a package with fewer masses than its material has compounds cannot be printed -/
namespace Auxi.Printout.Props
open Auxi Auxi.Printout Auxi.Printout.Spec Auxi.Printout.Proofs
open Auxi.Chem (Num)
open Auxi.Psd (F64)

theorem cat_refused {α : Type} {f : α → Res Str} {e : PyErr} {l : List α} (h1 : ∀ x ∈ l, (∃ s, f x = .ok s) ∨ f x = .error e) (h2 : ∃ x ∈ l, f x = .error e) :
    cat f l = .error e := by
  induction l with
  | nil => obtain ⟨x, hx, -⟩ := h2; cases hx
  | cons a l ih =>
    unfold cat
    rcases h1 a List.mem_cons_self with ⟨s, hs⟩ | hs
    · rw [hs]
      dsimp only
      obtain ⟨x, hx, he⟩ := h2
      rcases List.mem_cons.1 hx with rfl | hx
      · rw [hs] at he; cases he
      · rw [ih (fun y hy => h1 y (List.mem_cons_of_mem _ hy)) ⟨x, hx, he⟩]
    · rw [hs]

theorem massLines_short {κ α : Type} {w : ℕ} {key : κ → Str} {num : α → Str} {index : κ → Res ℕ} {masses : List α} {keys : List κ} (hi : Indexed keys index)
    (hl : masses.length < keys.length) : massLines w key num index masses keys = .error .indexError := by
  unfold massLines
  refine cat_refused (fun k hk => ?_) ⟨keys[masses.length], List.getElem_mem hl, ?_⟩
  · obtain ⟨i, hi'⟩ := List.mem_iff_getElem?.1 hk
    rw [hi i k hi']
    dsimp only
    unfold item
    cases h : masses[i]? with
    | none => exact .inr rfl
    | some x => exact .inl ⟨_, rfl⟩
  · rw [hi masses.length _ (List.getElem?_eq_getElem hl)]
    dsimp only
    unfold item
    rw [List.getElem?_eq_none (Nat.le_refl _)]

/-- **C122 (too few masses)**: `str(package)` raises `IndexError` for a package that was given fewer masses than its material has compounds or size classes; no mass is shown beside the
wrong name. -/
theorem C122_short (num : Num → Str) (key : ℚ → Str) (num' : F64 → Str) (name : Str) :
    (∀ p : Chem.Package, p.mat.compounds.Nodup → p.masses.length < p.mat.compounds.length → chemPackage num name p = .error .indexError) ∧
      (∀ p : Psd.Package, p.mat.classes.Nodup → p.masses.length < p.mat.classes.length → psdPackage key num' name p = .error .indexError) ∧
      ∀ p : Slurry.Package, p.mat.psd.classes.Nodup → p.masses.length < p.mat.psd.classes.length → slurryPackage key num' name p = .error .indexError := by
  refine ⟨fun p hd hl => ?_, fun p hd hl => ?_, fun p hd hl => ?_⟩
  · unfold chemPackage; rw [massLines_short (indexed_chem hd) hl]
  · unfold psdPackage; rw [massLines_short (indexed_psd hd) hl]
  · unfold slurryPackage; rw [massLines_short (indexed_psd hd) hl]

example (num : Num → Str) : chemPackage num (txt "m") ⟨⟨0, ["Fe2O3".toList, "SiO2".toList], [], []⟩, [Chem.fl 1]⟩ = .error .indexError :=
  (C122_short num (fun _ => []) (fun _ => []) (txt "m")).1 _ (by decide) (by decide)

end Auxi.Printout.Props
