import Verif.Bibliography

/-! # Specification vocabulary for C143 -/
namespace Auxi.Bibliography.Spec
open Auxi

/-- The fourteen entry types of BibTeX itself; `report`, `online`, `thesis`, … belong to BibLaTeX. -/
def classical : List Str :=
  ["article".toList, "book".toList, "booklet".toList, "conference".toList, "inbook".toList, "incollection".toList, "inproceedings".toList, "manual".toList, "mastersthesis".toList, "misc".toList, "phdthesis".toList, "proceedings".toList, "techreport".toList, "unpublished".toList]

/-- The same text up to the case of ASCII letters. -/
def sameLetters (s t : Str) : Prop := s.map Char.toLower = t.map Char.toLower

/-- The entry has a classical type. -/
def Classical (e : Entry) : Prop := ∃ t ∈ classical, sameLetters e.kind t

/-- `e` is the last classical entry of the file with its key. -/
def LastOf (file : List Entry) (e : Entry) : Prop := ∃ before after, file = before ++ e :: after ∧ Classical e ∧ ∀ x ∈ after, Classical x → x.key ≠ e.key

/-- `d` answers as the entry `e` is written: its type and key under `ENTRYTYPE` and `ID`, each field under its name in lower case (the last of the fields with that name), and nothing else. -/
def Shows (d : List (Str × Str)) (e : Entry) : Prop :=
  d.lookup "ENTRYTYPE".toList = some (e.kind.map Char.toLower) ∧ d.lookup "ID".toList = some e.key ∧
    ∀ name, name ≠ "ENTRYTYPE".toList → name ≠ "ID".toList → d.lookup name = (e.fields.reverse.find? (fun f => f.1.map Char.toLower = name)).map (·.2)

end Auxi.Bibliography.Spec
