import Verif.Printout
import Verif.Spec.FileFormat
import Verif.Spec.Thermo
import Verif.Spec.ThermoStream

/-!
# What a printout has to show

A printout is a text; what a reader sees is its `lines`.  Nothing here refers to how the text is put together, except Python's `ljust` and `rjust`.
-/
namespace Auxi.Printout.Spec
open Auxi Auxi.Printout
open Auxi.FileFormat (strLe)
open Auxi.Thermo (V)

/-- The lines of a text: the pieces between line ends; a text that ends with a line end has an empty last line. -/
def lines : Str → List Str
  | [] => [[]]
  | c :: s => if c = '\n' then [] :: lines s else match lines s with
    | [] => [[c]]
    | l :: ls => (c :: l) :: ls

/-- No line end inside. -/
def Plain (s : Str) : Prop := '\n' ∉ s

/-- Everything after the first line. -/
def body (s : Str) : Str := (s.dropWhile (· ≠ '\n')).drop 1

/-- Cells in columns of twenty characters. -/
def row (cells : List Str) : Str := (cells.map (ljust 20)).flatten

/-- The same entries in alphabetical order (by code points). -/
def Alphabetical (sorted l : List Str) : Prop := sorted.Perm l ∧ sorted.Pairwise (fun a b => strLe a b = true)

/-- `val n k` is the number of `k` in assay `n`: every assay has, in the order of the keys, one number per key. -/
def Filled {κ α : Type} (keys : List κ) (val : Str → κ → α) (assays : List (Str × List α)) : Prop :=
  (assays.map (·.1)).Nodup ∧ ∀ e ∈ assays, e.2 = keys.map (val e.1)

/-- A cell that can be told from its neighbours: an item that leaves at least one blank of its column. -/
def Narrow (s : Str) : Prop := FileFormat.Spec.Item s ∧ s.length < 20

/-! ## The printouts of `thermo` -/

/-- Columns separated by two blanks. -/
def columns (cells : List Str) : Str := (txt "  ").intercalate cells

/-- Name, total, pressure and so on: a label, a number and its unit. -/
def heading (sci : V → Str) (kind : String) (name : Str) (figures : List (String × V × String)) : List Str :=
  [List.replicate 67 '=', txt kind, List.replicate 67 '=', ljust 20 (txt "Material") ++ name] ++ figures.map (fun f => ljust 20 (txt f.1) ++ rjust 15 (sci f.2.1) ++ txt f.2.2)

/-- The table of compounds: each with its mass, its share of the mass and its share of the amount. -/
def compoundPart (sci : V → Str) (compounds : List Str) (mass massShare moleShare : Str → ℝ) : List Str :=
  [List.replicate 67 '-', txt "Compound Details", txt "Formula             Mass            Mass Fraction   Mole Fraction   ", List.replicate 67 '-'] ++
    compounds.map (fun c => ljust 20 c ++ columns [sci (some (mass c)), sci (some (massShare c)), sci (some (moleShare c))])

/-- The custom properties, if any. -/
def customPart (sci : V → Str) (keys : List Str) (val : Str → V) : List Str :=
  if keys = [] then [] else [List.replicate 67 '-', txt "Custom Properties:", List.replicate 67 '-'] ++ keys.map (fun k => ljust 20 k ++ sci (val k))

/-- The custom properties of a thermo material: every assay has the properties `props`, with the numbers `val`. -/
def HasProps (m : Thermo.Material) (props : List Str) (val : Str → Str → ℝ) : Prop :=
  m.custom.map (·.1) = m.assays.map (·.1) ∧ ∀ e ∈ m.custom, e.2 = props.map (fun k => (k, val e.1 k))

/-- The width of the printout of a thermo material. -/
def width (name : Str) (m : Thermo.Material) : ℕ := if m.assays = [] then 20 + name.length else 18 + 17 * m.assays.length

/-- The lines of the printout of a thermo material: assays `ns`, compounds `cs`, fractions `frac`, custom properties `ps`. -/
def materialLines (sci : V → Str) (name : Str) (w : ℕ) (ns cs ps : List Str) (frac prop : Str → Str → ℝ) : List Str :=
  [List.replicate w '=', txt "Material", List.replicate w '=', ljust 20 (txt "Name") ++ name, List.replicate w '-'] ++
    (if ns = [] then [] else [txt "Composition Details (mass fractions)"]) ++
    [ljust 20 (txt "Compound") ++ columns (ns.map fun n => ljust 15 (n.take 15)), List.replicate w '-'] ++
    cs.map (fun c => ljust 20 c ++ columns (ns.map fun n => rjust 15 (sci (some (frac n c))))) ++
    [ljust 20 (txt "Total") ++ columns (ns.map fun n => rjust 15 (sci (some ((cs.map (frac n)).sum))))] ++
    (if ps = [] then [] else [List.replicate w '-', txt "Custom Properties:", List.replicate w '-'] ++
      ps.map (fun k => ljust 20 k ++ columns (ns.map fun n => rjust 15 (sci (some (prop n k)))))) ++ [List.replicate w '=']

end Auxi.Printout.Spec
