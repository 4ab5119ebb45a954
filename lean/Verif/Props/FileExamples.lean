import Verif.Props.FileNumbers

/-!
# C95: concrete files; files that are not read as written
-/
namespace Auxi.FileFormat.Props
open Auxi.FileFormat Auxi.FileFormat.Spec

instance (s : Str) : Decidable (Blank s) := inferInstanceAs (Decidable (∀ c ∈ s, _))

/-- Lines of text as rows of items (for the examples). -/
def items (lines : List String) : List (List Str) := lines.map (fun l => if l = "" then [] else split l.toList)

/-! ### The hypotheses are met -/

/-- A file with tabs, repeated and surrounding blanks, a blank line and both kinds of line ends. -/
def messy : Str := "  Compound\tA  \t B\r\nFe2O3[S1]   0.2 0.3\t\n \t\n\tFeO 0.8\t\t0.7 ".toList

/-- Its rows. -/
def tidy : List (List Str) := items ["Compound A B", "Fe2O3[S1] 0.2 0.3", "", "FeO 0.8 0.7"]

/-- The compounds and numbers. -/
def oxides : List Row := [⟨"Fe2O3[S1]".toList, ["0.2".toList, "0.3".toList], [1/5, 3/10], []⟩, ⟨"FeO".toList, ["0.8".toList, "0.7".toList], [4/5, 7/10], []⟩]

theorem line3 {a f g h s t b : Str} (ha : Blank a) (hf : Item f) (hs : s ≠ []) (hs' : Blank s) (hg : Item g) (ht : t ≠ []) (ht' : Blank t)
    (hh : Item h) (hb : Blank b) : Line [f, g, h] (a ++ (f ++ s ++ (g ++ t ++ h)) ++ b) :=
  .items ha (.cons hf hs hs' (.cons hg ht ht' (.one hh))) hb

example : Layout tidy messy := by
  have h1 := line3 (a := "  ".toList) (f := "Compound".toList) (s := "\t".toList) (g := ['A']) (t := "  \t ".toList) (h := ['B']) (b := [])
    (by decide) (by decide) (by decide) (by decide) (by decide) (by decide) (by decide) (by decide) (by decide)
  have h2 := line3 (a := []) (f := "Fe2O3[S1]".toList) (s := "   ".toList) (g := "0.2".toList) (t := [' ']) (h := "0.3".toList) (b := ['\t'])
    (by decide) (by decide) (by decide) (by decide) (by decide) (by decide) (by decide) (by decide) (by decide)
  have h3 : Line [] " \t".toList := .blank (by decide)
  have h4 := line3 (a := ['\t']) (f := "FeO".toList) (s := [' ']) (g := "0.8".toList) (t := "\t\t".toList) (h := "0.7".toList) (b := [' '])
    (by decide) (by decide) (by decide) (by decide) (by decide) (by decide) (by decide) (by decide) (by decide)
  have := Layout.cons h1 (Or.inr rfl) (Layout.cons h2 (Or.inl rfl) (Layout.cons h3 (Or.inl rfl) (Layout.last (by decide) h4)))
  have e : tidy = [["Compound".toList, ['A'], ['B']], ["Fe2O3[S1]".toList, "0.2".toList, "0.3".toList], [], ["FeO".toList, "0.8".toList, "0.7".toList]] := by
    decide
  rw [e]
  exact this

theorem oxides_denote : ∀ r ∈ oxides, r.Denotes 2 := by
  intro r hr
  simp only [oxides, List.mem_cons, List.not_mem_nil, or_false] at hr
  rcases hr with rfl | rfl
  · exact ⟨rfl, .cons (by decide +kernel) (.cons (by decide +kernel) .nil)⟩
  · exact ⟨rfl, .cons (by decide +kernel) (.cons (by decide +kernel) .nil)⟩

/-- The hypotheses of `C95_chem`, `C95_chem_package` and `C95_thermo_plain`. -/
example : ["A".toList, "B".toList].Nodup ∧ Full ["A".toList, "B".toList] tidy.tail oxides ∧ (∀ fs ∈ tidy.tail, ¬ Hash fs) ∧
    Stoich.elements (oxides.map Row.label) = .ok ["Fe".toList, "O".toList] ∧ (oxides.map Row.label).Nodup ∧
    Column oxides 0 [1/5, 4/5] := by
  refine ⟨by decide, ⟨by decide +kernel, oxides_denote, Or.inl (by decide)⟩, ?_, by decide +kernel, by decide, by unfold Column; decide +kernel⟩
  intro fs hfs h
  rw [hash_cut] at h
  revert h
  revert fs
  decide

/-- The hypothesis of `C95_chem_refuses`: a formula that cannot be parsed. -/
example : Stoich.elements ["Fe2O3".toList, "(Fe".toList] = .error .parseError := by decide +kernel

/-- Size classes and numbers. -/
def sieves : List Row := [⟨"307.2E-3".toList, ["0.2".toList], [1/5], []⟩, ⟨"0".toList, ["0.8".toList], [4/5], []⟩]

/-- The hypotheses of `C95_psd` and (with the two further rows) `C95_slurry`. -/
example : List.Forall₂ (fun r k => pyFloat r.label = .ok k) sieves [192/625, 0] ∧
    Full ["A".toList] (items ["307.2E-3 0.2", "0 0.8"]) sieves ∧
    (⟨"solid_density".toList, ["3.0".toList], [3], []⟩ : Row).Denotes 1 ∧ (⟨"H2O".toList, ["0.80".toList], [4/5], []⟩ : Row).Denotes 1 := by
  refine ⟨.cons (by decide +kernel) (.cons (by decide +kernel) .nil), ⟨by decide +kernel, ?_, Or.inl (by decide)⟩,
    ⟨rfl, .cons (by decide +kernel) .nil⟩, ⟨rfl, .cons (by decide +kernel) .nil⟩⟩
  intro r hr
  simp only [sieves, List.mem_cons, List.not_mem_nil, or_false] at hr
  rcases hr with rfl | rfl
  · exact ⟨rfl, .cons (by decide +kernel) .nil⟩
  · exact ⟨rfl, .cons (by decide +kernel) .nil⟩

/-- The hypotheses of `C95_thermo` (and, with a blank line after it, `C95_thermo_blank`): the price of the documented example. -/
example : Hash [['#']] ∧ (⟨"Price[USD/kg]".toList, ["1.2".toList, "1.3".toList], [6/5, 13/10], []⟩ : Row).Denotes 2 :=
  ⟨⟨[], [], rfl⟩, ⟨rfl, .cons (by decide +kernel) (.cons (by decide +kernel) .nil)⟩⟩

/-! ### Files not read as written -/

/-- **C95 is false of the code for an assay named twice** (which `add_assay` refuses): the file is accepted, the first columns are interleaved
into one assay that has more numbers than there are compounds, and the last assay is empty. -/
theorem C95_duplicate_violated : ∃ t m, Layout (items ["Compound A A B", "FeO 0.1 0.2 0.3", "Fe2O3 0.9 0.8 0.7"]) t ∧ readChem 0 t = .ok m ∧
    m.compounds = ["FeO".toList, "Fe2O3".toList] ∧ m.assays = [("A".toList, [1/10, 2/10, 9/10, 8/10].map Chem.fl), ("B".toList, [])] := by
  have hL : Layout (items ["Compound A A B", "FeO 0.1 0.2 0.3", "Fe2O3 0.9 0.8 0.7"])
      (write (items ["Compound A A B", "FeO 0.1 0.2 0.3", "Fe2O3 0.9 0.8 0.7"])) := layout_write _ (by decide)
  refine ⟨_, ⟨0, ["FeO".toList, "Fe2O3".toList], [("A".toList, [1/10, 2/10, 9/10, 8/10].map Chem.fl), ("B".toList, [])], ["Fe".toList, "O".toList]⟩,
    hL, ?_, rfl, rfl⟩
  rw [(reads hL (lines := ["Compound A A B".toList, "FeO 0.1 0.2 0.3".toList, "Fe2O3 0.9 0.8 0.7".toList]) (by decide) 0).1]
  decide +kernel

/-- The example of the documentation of slurry materials (`/repo/auxi/modelling/process/materials/slurry.py:60-72`), first lines. -/
def slurryDoc : List (List Str) := items ["SizeClass DryFeedA DryMillCharge WetFeedA WetMillCharge Water",
  "solid_density 3.00 3.00 3.00 3.00 1.0.", "H2O 0.00 0.00 0.80 0.60 1.00", "307.2E-3 0.20 0.02 0.20 0.02 0.00"]

/-- **The documented slurry file cannot be read**: its second line ends in `1.0.`, which is not a number. -/
theorem C95_slurry_doc_violated {t : Str} (h : Layout slurryDoc t) (i : ℕ) : readSlurry i t = .error .valueError := by
  rw [(reads h (lines := ["SizeClass DryFeedA DryMillCharge WetFeedA WetMillCharge Water".toList,
    "solid_density 3.00 3.00 3.00 3.00 1.0.".toList, "H2O 0.00 0.00 0.80 0.60 1.00".toList, "307.2E-3 0.20 0.02 0.20 0.02 0.00".toList])
    (by decide) i).2.2.1]
  have h1 : titledRow "solid_density".toList (assayNames "SizeClass DryFeedA DryMillCharge WetFeedA WetMillCharge Water".toList)
      (some "solid_density 3.00 3.00 3.00 3.00 1.0.".toList)
      (initDict 1 (assayNames "SizeClass DryFeedA DryMillCharge WetFeedA WetMillCharge Water".toList)) = .error .valueError := by decide +kernel
  simp only [slurryOfLines, List.getElem?_cons_zero, h1]

example : Layout slurryDoc (write slurryDoc) := layout_write _ (by decide)

/-- **A blank first line makes a psd file unreadable**: no assays are found, and the heading is taken for a size class. -/
theorem C95_leading_blank_violated {corner : Str} {names : List Str} {layout : List (List Str)} {t : Str}
    (h : Layout ([] :: (corner :: names) :: layout) t) {e : PyErr} (hc : pyFloat corner = .error e) (i : ℕ) : readPsd i t = .error e := by
  have h1 := fileLines_layout h
  unfold readPsd
  match h2 : fileLines t with
  | [] => rw [h2] at h1; simp at h1
  | [_] => rw [h2] at h1; simp at h1
  | x :: y :: lines =>
    rw [h2] at h1
    simp only [List.map_cons, List.cons.injEq, cut_cons] at h1
    have hn : assayNames x = [] := by unfold assayNames; rw [h1.1]; rfl
    simp only [psdOfLines, hn]
    rw [tableRows]
    simp only [h1.2.1, List.length_cons, List.length_nil, Nat.zero_add, not_lt.2 (Nat.le_add_left 1 _), if_false, List.headD_cons, hc]

example : Layout ([] :: items ["SizeClass A", "0.1 1"]) (write ([] :: items ["SizeClass A", "0.1 1"])) ∧
    pyFloat "SizeClass".toList = .error .valueError := ⟨layout_write _ (by decide), by decide +kernel⟩

/-- **An empty file raises an `IndexError`** in all four readers. -/
theorem C95_empty (i : ℕ) : readChem i [] = .error .indexError ∧ readPsd i [] = .error .indexError ∧ readSlurry i [] = .error .indexError ∧
    readThermo i [] = .error .indexError := ⟨rfl, rfl, rfl, rfl⟩

end Auxi.FileFormat.Props
