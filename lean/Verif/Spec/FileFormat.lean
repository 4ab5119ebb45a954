import Mathlib.Data.List.Forall2
import Verif.FileFormat
import Verif.Spec.Stoich

/-!
# What it means that a text is a material file with given contents

Only the vocabulary of the documentation (`/repo/auxi/modelling/process/materials/thermo.py:38-47`): lines of items, "the items in a line are
separated by one or more spaces or tabs".  Nothing here refers to how files are read, except `isSpace` (what counts as white space) and
`pyFloat` (which number a text denotes).
-/
namespace Auxi.FileFormat.Spec

/-- Blanks and tabs only. -/
def Blank (s : Str) : Prop := ∀ c ∈ s, c = ' ' ∨ c = '\t'

/-- An item: not empty, no white space inside. -/
def Item (s : Str) : Prop := s ≠ [] ∧ ∀ c ∈ s, isSpace c = false

/-- `Items fs s`: the text `s` consists of the items `fs`, separated by one or more blanks or tabs. -/
inductive Items : List Str → Str → Prop
  | one {f : Str} : Item f → Items [f] f
  | cons {f g s : Str} {fs : List Str} : Item f → g ≠ [] → Blank g → Items fs s → Items (f :: fs) (f ++ g ++ s)

/-- `Line fs s`: the line `s` holds the items `fs`, possibly surrounded by blanks or tabs.  A line without items is blank. -/
inductive Line : List Str → Str → Prop
  | blank {s : Str} : Blank s → Line [] s
  | items {a s b : Str} {fs : List Str} : Blank a → Items fs s → Blank b → Line fs (a ++ s ++ b)

/-- `Layout rows t`: the text `t` consists of lines holding the items `rows`.  Lines end with a line feed or carriage return and line feed; the
last may end with the text. -/
inductive Layout : List (List Str) → Str → Prop
  | nil : Layout [] []
  | last {fs : List Str} {s : Str} : s ≠ [] → Line fs s → Layout [fs] s
  | cons {fs : List Str} {s e t : Str} {rows : List (List Str)} : Line fs s → e = ['\n'] ∨ e = ['\r', '\n'] → Layout rows t →
      Layout (fs :: rows) (s ++ e ++ t)

/-- The plainest way to write rows of items: one blank between items, each line ended by a line feed. -/
def write (rows : List (List Str)) : Str := rows.flatMap (fun fs => [' '].intercalate fs ++ ['\n'])

/-- A row of a material table: a label and one number per assay, each with the text written for it. -/
structure Row where
  /-- compound or size class, as written -/
  label : Str
  /-- the numbers as written -/
  texts : List Str
  /-- the numbers -/
  values : List ℚ
  /-- further items of the line, without meaning -/
  rest : List Str

/-- The texts written denote the numbers, and there is one for each of the `n` assays. -/
def Row.Denotes (n : ℕ) (r : Row) : Prop := r.values.length = n ∧ List.Forall₂ (fun t v => pyFloat t = .ok v) r.texts r.values

/-- The items of the row. -/
def Row.items (r : Row) : List Str := r.label :: r.texts ++ r.rest

/-- `Full names layout rows`: of the lines `layout`, those with at least one item per assay besides the label are the rows `rows`.  All other
lines (in particular blank ones) are not full and to be skipped. -/
def Full (names : List Str) (layout : List (List Str)) (rows : List Row) : Prop :=
  layout.filter (fun fs => decide (names.length < fs.length)) = rows.map Row.items ∧ (∀ r ∈ rows, r.Denotes names.length) ∧
    (names ≠ [] ∨ [] ∉ layout)

/-- `Column rows j l`: `l` lists the numbers of column `j`. -/
def Column (rows : List Row) (j : ℕ) (l : List ℚ) : Prop := l.map some = rows.map (fun r => r.values[j]?)

/-- `Holds names rows d`: the dictionary `d` has exactly the assays `names`, in order, each with its column of numbers. -/
def Holds (names : List Str) (rows : List Row) (d : List (Str × List ℚ)) : Prop :=
  d.map (·.1) = names ∧ ∀ (j : ℕ) (name : Str), names[j]? = some name → ∃ l, d.lookup name = some l ∧ Column rows j l

/-- `HoldsCustom names rows d`: for each assay `d` has the custom properties `rows`, in order, with the numbers of the assay's column. -/
def HoldsCustom (names : List Str) (rows : List Row) (d : List (Str × List (Str × ℚ))) : Prop :=
  d.map (·.1) = names ∧ ∀ (j : ℕ) (name : Str), names[j]? = some name → ∃ props, d.lookup name = some props ∧
    props.map (fun p => (p.1, some p.2)) = rows.map (fun r => (r.label, r.values[j]?))

/-- A line whose first item starts with `#`. -/
def Hash (fs : List Str) : Prop := ∃ t rest, fs = ('#' :: t) :: rest

/-- A number in decimal notation: optional sign, digits, optional point and digits, optional exponent with optional sign. -/
structure Numeral where
  /-- `some true` is `-`, `some false` is `+` -/
  sign : Option Bool
  /-- digits before the point -/
  int : Str
  /-- point and digits after it -/
  frac : Option Str
  /-- letter, sign and digits of the exponent -/
  exp : Option (Char × Option Bool × Str)

/-- A sign as written. -/
def signText : Option Bool → Str
  | none => []
  | some true => ['-']
  | some false => ['+']

/-- A fraction as written. -/
def fracText : Option Str → Str
  | none => []
  | some f => '.' :: f

/-- An exponent as written. -/
def expText : Option (Char × Option Bool × Str) → Str
  | none => []
  | some (c, s, d) => c :: (signText s ++ d)

/-- The exponent denoted. -/
def expValue : Option (Char × Option Bool × Str) → ℤ
  | none => 0
  | some (_, s, d) => (if s = some true then -1 else 1) * (Stoich.Spec.value d : ℤ)

/-- The numeral as written. -/
def Numeral.text (n : Numeral) : Str := signText n.sign ++ (n.int ++ fracText n.frac ++ expText n.exp)

/-- Digits only. -/
def Digits (s : Str) : Prop := ∀ c ∈ s, 48 ≤ c.toNat ∧ c.toNat ≤ 57

/-- Proper notation: digits where digits belong, at least one before or after the point, at least one in an exponent. -/
structure Numeral.Proper (n : Numeral) : Prop where
  int : Digits n.int
  frac : ∀ f, n.frac = some f → Digits f
  some_digit : n.int ≠ [] ∨ ∃ f, n.frac = some f ∧ f ≠ []
  exp : ∀ c s d, n.exp = some (c, s, d) → (c = 'e' ∨ c = 'E') ∧ d ≠ [] ∧ Digits d

/-- The number the numeral denotes. -/
def Numeral.value (n : Numeral) : ℚ :=
  (if n.sign = some true then -1 else 1) * ((Stoich.Spec.value (n.int ++ n.frac.getD []) : ℚ) *
    (10 : ℚ) ^ (expValue n.exp - ((n.frac.getD []).length : ℤ)))

end Auxi.FileFormat.Spec
