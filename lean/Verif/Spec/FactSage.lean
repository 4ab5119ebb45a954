import Verif.FactSage
import Verif.Spec.FileFormat

/-!
# What it means that a text is a FactSage data file with given contents

The layout the comments in `/repo/auxi/tools/chemistry/thermochemistry.py:553-653` describe: a heading whose second item is the formula, a line starting with `_`,
data lines, and a line starting with `_` or the end of the file.  A data line names phase and record, gives enthalpy and entropy of formation if it is the first
of its phase, one or two terms of the heat capacity, and the range of temperatures.  Nothing here refers to how files are read, except `pyFloat` (which number
a text denotes) and `Item` (no white space).
-/
namespace Auxi.FactSage.Spec
open Auxi.FileFormat.Spec (Item)
open Auxi.FileFormat (pyFloat)

/-- A number: the text written for it and its value. -/
structure Num where
  /-- as written -/
  text : Str
  /-- the number -/
  value : ℚ

/-- The text denotes the value and is not the special text `298`. -/
def Num.Good (n : Num) : Prop := Item n.text ∧ n.text ≠ "298".toList ∧ n.text ≠ "-".toList ∧ pyFloat n.text = .ok n.value

/-- A temperature: a number, or `298`, which stands for 298.15. -/
def Num.Temperature (n : Num) : Prop := n.Good ∨ n.text = "298".toList ∧ n.value = 298.15

/-- A heat capacity record: its label, range and terms (coefficient and exponent), those on its first line and those on further lines. -/
structure Record where
  /-- label of the record -/
  id : Str
  /-- lower temperature -/
  Tmin : Num
  /-- upper temperature -/
  Tmax : Num
  /-- terms on the first line -/
  first : List (Num × Num)
  /-- terms on further lines -/
  more : List (List (Num × Num))

/-- A phase. -/
structure Phase where
  /-- such as S1, L1, G1 -/
  symbol : Str
  /-- enthalpy of formation -/
  DH : Num
  /-- standard entropy -/
  S : Num
  /-- the first record -/
  first : Record
  /-- further records -/
  more : List Record

/-- All records of a phase. -/
def Phase.records (p : Phase) : List Record := p.first :: p.more

/-- The items of one line. -/
def line (symbol : Str) (extra : List Num) (terms : List (Num × Num)) (r : Record) : List Str :=
  symbol :: r.id :: extra.map Num.text ++ terms.flatMap (fun t => [t.1.text, t.2.text]) ++ [r.Tmin.text, "-".toList, r.Tmax.text]

/-- The further lines of a record. -/
def Record.further (symbol : Str) (r : Record) : List (List Str) := r.more.map (fun ts => line symbol [] ts r)

/-- The lines of a record that is not the first of its phase. -/
def Record.lines (symbol : Str) (r : Record) : List (List Str) := line symbol [] r.first r :: r.further symbol

/-- The lines of a phase. -/
def Phase.lines (p : Phase) : List (List Str) :=
  line p.symbol [p.DH, p.S] p.first.first p.first :: p.first.further p.symbol ++ p.more.flatMap (Record.lines p.symbol)

/-- One or two terms, all numbers. -/
def GoodTerms (ts : List (Num × Num)) : Prop := (ts.length = 1 ∨ ts.length = 2) ∧ ∀ t ∈ ts, t.1.Good ∧ t.2.Good

/-- A record that can be written down. -/
structure Record.Good (r : Record) : Prop where
  id : Item r.id ∧ r.id ≠ "298".toList ∧ r.id ≠ "-".toList
  range : r.Tmin.Temperature ∧ r.Tmax.Good
  first : GoodTerms r.first
  more : ∀ ts ∈ r.more, GoodTerms ts

/-- A phase that can be written down, with its records in the order of their temperatures. -/
structure Phase.Good (p : Phase) : Prop where
  symbol : Item p.symbol ∧ p.symbol.head? ≠ some '_'
  numbers : p.DH.Good ∧ p.S.Good
  records : ∀ r ∈ p.records, r.Good
  ascending : (p.records.map (fun r => r.Tmax.value)).Pairwise (· < ·)

/-- The record that is described. -/
def Record.data (r : Record) : RecData := ⟨r.Tmin.value, r.Tmax.value, (r.first ++ r.more.flatten).map (fun t => (t.1.value, t.2.value))⟩

/-- The phase that is described: its data start at 298.15 K. -/
def Phase.data (p : Phase) : PhaseData :=
  ⟨p.DH.value, p.S.value, (p.first.Tmax.value, { p.first.data with Tmin := 298.15 }) :: p.more.map (fun r => (r.Tmax.value, r.data))⟩

/-- `Spaced fs s`: the text `s` consists of the items `fs`, separated by one or more blanks. -/
inductive Spaced : List Str → Str → Prop
  | one {f : Str} : Item f → Spaced [f] f
  | cons {f s : Str} {fs : List Str} (n : ℕ) : Item f → Spaced fs s → Spaced (f :: fs) (f ++ (' ' :: List.replicate n ' ') ++ s)

/-- `Table rows t`: the text `t` holds the rows, possibly with blank lines between them, up to its end or a line starting with `_`, after which there may be
anything. -/
inductive Table : List (List Str) → Str → Prop
  | eof : Table [] []
  | rule (t : Str) : Table [] ('_' :: t)
  | blank {rows : List (List Str)} {t : Str} (k : ℕ) : Table rows t → Table rows (List.replicate k ' ' ++ '\n' :: t)
  | row {fs : List Str} {s t : Str} {rows : List (List Str)} (k : ℕ) : Spaced fs s → Table rows t → Table (fs :: rows) (s ++ List.replicate k ' ' ++ '\n' :: t)

/-- No line ends inside. -/
def Inline (s : Str) : Prop := ∀ c ∈ s, c ≠ '\n' ∧ c ≠ '\r'

/-- `FileText formula rows t`: the text `t` is a heading whose second item is the formula, further heading lines, a line starting with `_` and a table with these
rows. -/
def FileText (formula : Str) (rows : List (List Str)) (t : Str) : Prop :=
  ∃ a b rule table, ∃ heads : List Str,
    t = (a ++ ' ' :: formula ++ ' ' :: b) ++ '\n' :: (heads.flatMap (fun h => h ++ ['\n']) ++ ('_' :: rule) ++ '\n' :: table) ∧
    Item a ∧ a.head? ≠ some '_' ∧ Item formula ∧ Inline b ∧ (∀ h ∈ heads, Inline h ∧ h.head? ≠ some '_') ∧ Inline rule ∧ Table rows table

/-- The labels of all records of the phases, in order. -/
def ids (ps : List Phase) : List Str := ps.flatMap (fun p => p.records.map Record.id)

/-- Phases that can be written down one after the other: different symbols (none called `zz`), and no record labelled like the one before it (the first one not
`0`). -/
structure Distinct (ps : List Phase) : Prop where
  symbols : (ps.map Phase.symbol).Nodup
  zz : "zz".toList ∉ ps.map Phase.symbol
  labels : List.IsChain (· ≠ ·) ("0".toList :: ids ps)

/-- The ranges of the records join up, and the first one reaches beyond 298.15 K. -/
def Phase.Joined (p : Phase) : Prop :=
  298.15 < p.first.Tmax.value ∧ List.IsChain (fun a b => a.Tmax.value = b.Tmin.value) p.records

/-- A file: its formula, the phases described in it and its text. -/
structure File where
  /-- the formula -/
  formula : Str
  /-- the phases -/
  phases : List Phase
  /-- the text -/
  text : Str

/-- The text describes the phases, and the formula has this molar mass in g/mol. -/
structure File.Good (f : File) (m : ℚ) : Prop where
  text : FileText f.formula (f.phases.flatMap Phase.lines) f.text
  phases : ∀ p ∈ f.phases, p.Good
  distinct : Distinct f.phases
  mass : Stoich.molarMass f.formula = .ok m

/-- The record of a phase, as an object of the thermochemistry module. -/
noncomputable def Record.object (Tmin : ℚ) (r : Record) : ℝ × ThermoChem.CpRecord :=
  ((r.Tmax.value : ℝ), ⟨(Tmin : ℝ), (r.Tmax.value : ℝ), (r.first ++ r.more.flatten).map (fun t : Num × Num => ((t.1.value : ℝ), (t.2.value : ℝ)))⟩)

/-- The phase, as an object of the thermochemistry module: no magnetic data. -/
noncomputable def Phase.object (p : Phase) : ThermoChem.Phase :=
  ⟨(p.DH.value : ℝ), (p.S.value : ℝ), p.first.object 298.15 :: p.more.map (fun r => r.object r.Tmin.value), none⟩

/-- The compound described by a file with a formula of molar mass `m` g/mol. -/
noncomputable def File.object (f : File) (m : ℚ) : ThermoChem.Compound := ⟨((m / 1000 : ℚ) : ℝ), f.phases.map (fun p => (p.symbol, p.object))⟩

end Auxi.FactSage.Spec
