import Verif.Version

/-! # Updating the version -/
namespace Auxi.Version.Spec
open Auxi.Version

/-- A version as it can be typed in: no quote, no line end, not empty. -/
def Plain (v : Str) : Prop := v ≠ [] ∧ '\'' ∉ v ∧ '\n' ∉ v

/-- The text contains the other. -/
def Contains (s p : Str) : Prop := p <:+: s

/-- The text with every occurrence of `old`, found from the left and not overlapping, exchanged for `new`. -/
inductive Exchanged (old new : Str) : Str → Str → Prop
  | done (s : Str) (h : ¬ Contains s old) : Exchanged old new s s
  | next (a s s' : Str) (h : ∀ i, i < a.length → ¬ old <+: (a ++ old).drop i) (hs : Exchanged old new s s') : Exchanged old new (a ++ old ++ s) (a ++ new ++ s')

/-- A line of a text: either it declares the version with a keyword, or it is just text. -/
inductive Line
  | declares (key : Str)
  | other (s : Str)
  deriving DecidableEq

/-- The line as text, the version being `v`: `key = 'v'`. -/
def Line.text (v : Str) : Line → Str
  | .declares k => k ++ v ++ ['\'']
  | .other s => s

/-- The lines of a text, each with its end, and what comes after the last line end. -/
def textOf (v : Str) (ls : List Line) : Str := ls.flatMap (fun l => l.text v ++ ['\n'])

def auxiKey : Str := "__version__ = '".toList
def docKeys : List Str := ["copyright = '2015-2016, ".toList, "version = '".toList, "release = '".toList]

/-- The other lines are single lines without any of the keywords. -/
def LinesOk (keys : List Str) (ls : List Line) : Prop :=
  ∀ l ∈ ls, match l with
    | .declares k => k ∈ keys
    | .other s => '\n' ∉ s ∧ ∀ k ∈ keys, ¬ Contains s k

/-- A file written for any version. -/
structure Template where
  place : Place
  name : Str
  lines : List Line

/-- The file at version `v`. -/
def Template.at (v : Str) (t : Template) : File := ⟨t.place, t.name, textOf v t.lines⟩

/-- The file is a Python module under `auxi` that declares versions with the keyword only, one under `doc`, or a file that is no business of the update. -/
def Template.Ok (t : Template) : Prop :=
  match t.place with
  | .auxi => ".py".toList <:+ t.name ∧ LinesOk [auxiKey] t.lines
  | .doc => ".py".toList <:+ t.name ∧ LinesOk docKeys t.lines
  | _ => False

/-- The text of `setup.py`: before the version, after it. -/
def setupAt (v a b : Str) : Str := a ++ "version='".toList ++ v ++ ['\''] ++ b

/-- `version='` occurs in `setup.py` for the first time where the version is declared. -/
def SetupOk (a : Str) : Prop := ∀ i, i < a.length → ¬ "version='".toList <+: (a ++ "version='".toList).drop i

/-- The pieces of a text with the version between them. -/
def joined (v : Str) : List Str → Str
  | [] => []
  | [p] => p
  | p :: ps => p ++ v ++ joined v ps

/-- A script written for any version: its name and the pieces of its text. -/
def scriptAt (v : Str) (f : Str × List Str) : File := ⟨.scripts, f.1, joined v f.2⟩

/-- The script is found, and the first character of the version is nowhere else in its text. -/
def ScriptOk (v : Str) (f : Str × List Str) : Prop := ".sh".toList <:+ f.1 ∧ f.1.head? ≠ some '.' ∧ ∃ c r, v = c :: r ∧ ∀ p ∈ f.2, c ∉ p

end Auxi.Version.Spec
