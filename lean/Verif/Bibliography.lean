import Verif.Basic

/-!
# `/repo/auxi/core/bibliography.py`: the bibliography database

The module hands the text of a file to `bibtexparser.loads` and keeps the dictionary of the entries that gives.  Splitting the text into entries (type, key, fields) is `bibtexparser`'s grammar and
not modelled; what it does with the entries is (`BibTexParser._add_entry` with the default arguments, `BibDatabase.get_entry_dict`): an entry whose type is not one of the fourteen classical BibTeX types is dropped, the names of types and fields are
written in lower case, and entries are put in the dictionary by their key in the order of the file.
-/
namespace Auxi.Bibliography
open Auxi

/-- An entry of a file as it is written there: `@kind{key, name = {text}, ...}` (`/repo/auxi/core/data/bibliography.bib:1-11`). -/
structure Entry where
  kind : Str
  key : Str
  fields : List (Str × Str)
  deriving DecidableEq, Repr

/-- `str.lower` for the ASCII letters that type and field names consist of (`bibtexparser.loads`, called in `/repo/auxi/core/bibliography.py:34`). -/
def lower (s : Str) : Str := s.map Char.toLower

/-- `bibtexparser.bparser.STANDARD_TYPES` (`bibtexparser.loads`, called in `/repo/auxi/core/bibliography.py:34`). -/
def standardTypes : List Str :=
  ["article", "book", "booklet", "conference", "inbook", "incollection", "inproceedings", "manual", "mastersthesis", "misc", "phdthesis", "proceedings", "techreport", "unpublished"].map String.toList

/-- `d[k] = v` in a dictionary with text keys (`/repo/auxi/core/bibliography.py:35`). -/
def setKey {α : Type} (d : List (Str × α)) (k : Str) (v : α) : List (Str × α) :=
  if d.any (fun e => e.1 = k) = true then d.map (fun e => if e.1 = k then (k, v) else e) else d ++ [(k, v)]

/-- The dictionary of one entry (`bibtexparser.loads`, called in `/repo/auxi/core/bibliography.py:34`). -/
def record (e : Entry) : List (Str × Str) :=
  setKey (setKey (e.fields.foldl (fun d f => setKey d (lower f.1) f.2) []) "ENTRYTYPE".toList (lower e.kind)) "ID".toList e.key

/-- The entries that `bibtexparser.loads` keeps (`/repo/auxi/core/bibliography.py:34`). -/
def kept (file : List Entry) : List Entry := file.filter (fun e => lower e.kind ∈ standardTypes)

/-- `Database.__init__` (`/repo/auxi/core/bibliography.py:30-35`): `get_entry_dict` of what was loaded. -/
def load (file : List Entry) : List (Str × List (Str × Str)) := (kept file).foldl (fun d e => setKey d e.key (record e)) []

/-- `Database.__getitem__` (`/repo/auxi/core/bibliography.py:40-41`). -/
def getItem (db : List (Str × List (Str × Str))) (key : Str) : Res (List (Str × Str)) :=
  match db.lookup key with
  | some d => .ok d
  | none => .error .keyError

/-- `/repo/auxi/core/data/bibliography.bib`, which the module loads as `db` (`/repo/auxi/core/bibliography.py:43-44`). -/
def shipped : List Entry :=
  [⟨"book".toList, "lienhard2015".toList, [("author".toList, "J.H. Lienhard IV and J.H. Lienhard V".toList), ("title".toList, "A Heat Transfer Textbook".toList), ("date".toList, "2015-03-12".toList), ("edition".toList, "Fourth".toList), ("note".toList, "version 2.03".toList), ("publisher".toList, "Phlogiston Press".toList), ("location".toList, "Cambridge, Massachusetts, USA".toList), ("url".toList, "http://web.mit.edu/lienhard/www/ahtt.html".toList), ("urldate".toList, "2016-07-09".toList)]⟩,
   ⟨"book".toList, "lienhard2018".toList, [("author".toList, "J.H. Lienhard IV and J.H. Lienhard V".toList), ("title".toList, "A Heat Transfer Textbook".toList), ("date".toList, "2018-07-15".toList), ("edition".toList, "Fourth".toList), ("note".toList, "version 2.12".toList), ("publisher".toList, "Phlogiston Press".toList), ("location".toList, "Cambridge, Massachusetts, USA".toList), ("url".toList, "http://web.mit.edu/lienhard/www/ahtt.html".toList), ("urldate".toList, "2019-03-10".toList)]⟩,
   ⟨"book".toList, "cengel2018".toList, [("author".toList, "Y.A. \\c{C}engel and A.J. Ghajar".toList), ("title".toList, "Heat and Mass Transfer".toList), ("date".toList, "2011".toList), ("edition".toList, "Fourth".toList), ("publisher".toList, "McGraw-Hill".toList), ("location".toList, "New York, USA".toList), ("ibsn".toList, "978-007-131112-0".toList)]⟩,
   ⟨"report".toList, "davidson1993".toList, [("author".toList, "T.A. Davidson".toList), ("title".toList, "A simple and accurate model for calculating viscosity of gaseous mixtures".toList), ("type".toList, "Invstigation Report".toList), ("institution".toList, "U.S. Bureau of Mines".toList), ("date".toList, "1993".toList), ("url".toList, "https://stacks.cdc.gov/view/cdc/10045/cdc_10045_DS1.pdf".toList), ("urldate".toList, "2019-03-11".toList)]⟩,
   ⟨"online".toList, "nist2018-constants".toList, [("author".toList, "NIST".toList), ("title".toList, "The NIST Reference on Constants, Units, and Uncertainty".toList), ("date".toList, "2018".toList), ("url".toList, "https://physics.nist.gov/cuu/Constants/index.html".toList), ("subtitle".toList, "CODATA Internationally recommended 2018 values of the Fundamental Physical Constants".toList), ("urldate".toList, "2019-07-10".toList)]⟩]

end Auxi.Bibliography
