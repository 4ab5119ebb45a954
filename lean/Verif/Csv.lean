import Verif.Basic

/-!
# Model of the CSV files that the code writes and reads

`/repo/auxi/core/reporting.py:99-106` and `/repo/auxi/tools/materialphysicalproperties/core.py:53-145`, with the parts of Python's `csv` module that they call: `csv.writer`
with the default dialect (minimal quoting, doubled quotes, no escape character) and `csv.reader` (not strict).  A file is its decoded text, opened so that line ends are kept
(`newline=''`, or line ends `\n` on a system where these are kept).  Cells are texts: the writer calls `str` on numbers.
-/
namespace Auxi.Csv

/-- Does the character make `csv.writer` quote a field (`reporting.py:102,105`, `core.py:66-67`)?  The delimiter, the quote and the characters of the line terminator; since
Python 3.13 (`newer`) also `\r` and `\n` whatever the terminator. -/
def special (newer : Bool) (lt : Str) (c : Char) : Bool := c == ',' || c == '"' || lt.contains c || (newer && (c == '\r' || c == '\n'))

/-- A field between quotes, its quotes doubled (`reporting.py:102,105`, `core.py:66-83`). -/
def quoted (s : Str) : Str := '"' :: s.flatMap (fun c => if c = '"' then ['"', '"'] else [c]) ++ ['"']

/-- A field as `csv.writer` writes it (`reporting.py:102,105`, `core.py:66-83`); `only` says that the row has no other field: then an empty field is quoted. -/
def field (newer : Bool) (lt : Str) (only : Bool) (s : Str) : Str := if s.any (special newer lt) || (only && s.isEmpty) then quoted s else s

/-- Fields separated by commas (`writerow`, `core.py:68-83`). -/
def fields (newer : Bool) (lt : Str) : List Str → Str
  | [] => []
  | [s] => field newer lt false s
  | s :: l => field newer lt false s ++ ',' :: fields newer lt l

/-- `csv.writer.writerow` (`core.py:68-83`). -/
def writeRow (newer : Bool) (lt : Str) (row : List Str) : Str := (match row with
  | [s] => field newer lt true s
  | l => fields newer lt l) ++ lt

/-- `csv.writer.writerows` (`reporting.py:102,105`). -/
def writeRows (newer : Bool) (lt : Str) (table : List (List Str)) : Str := table.flatMap (writeRow newer lt)

/-- What `_render_csv_` does. -/
inductive Output
  /-- the file with this name gets this text -/
  | file (path text : Str)
  /-- this text is printed -/
  | printed (text : Str)
  deriving DecidableEq, Repr

/-- `Report._render_csv_(table)` (`reporting.py:99-106`), for a table whose cells have been turned into texts. -/
def renderCsv (newer : Bool) (outputPath : Option Str) (table : List (List Str)) : Output := match outputPath with
  | some p => .file (p ++ ".csv".toList) (writeRows newer "\n".toList table)
  | none => .printed (writeRows newer "\n".toList table ++ "\n".toList)

/-! ## `csv.reader` -/

/-- The states of `csv.reader` (used at `core.py:108`). -/
inductive Mode
  | startRecord | startField | inField | inQuoted | quoteInQuoted | eatCrnl
  deriving DecidableEq, Repr

/-- The reader's variables (`core.py:108`): state, the field and the fields so far. -/
structure RSt where
  /-- state -/
  mode : Mode
  /-- the characters of the field -/
  field : Str
  /-- the finished fields of the row -/
  fields : List Str
  deriving DecidableEq, Repr

/-- The field is finished (`core.py:108`). -/
def RSt.save (st : RSt) (m : Mode) : RSt := ⟨m, [], st.fields ++ [st.field]⟩

/-- A character is added to the field (`core.py:108`). -/
def RSt.add (st : RSt) (m : Mode) (c : Char) : RSt := ⟨m, st.field ++ [c], st.fields⟩

/-- A character at the start of a field (`core.py:108`). -/
def feedStart (st : RSt) (c : Char) : RSt :=
  if c = '\n' ∨ c = '\r' then st.save .eatCrnl
  else if c = '"' then { st with mode := .inQuoted }
  else if c = ',' then st.save .startField
  else st.add .inField c

/-- One character (`core.py:108`, the function `parse_process_char` of the `csv` module). -/
def feed (st : RSt) (c : Char) : Res RSt := match st.mode with
  | .startRecord => .ok (if c = '\n' ∨ c = '\r' then { st with mode := .eatCrnl } else feedStart st c)
  | .startField => .ok (feedStart st c)
  | .inField => .ok (if c = '\n' ∨ c = '\r' then st.save .eatCrnl else if c = ',' then st.save .startField else st.add .inField c)
  | .inQuoted => .ok (if c = '"' then { st with mode := .quoteInQuoted } else st.add .inQuoted c)
  | .quoteInQuoted => .ok (
      if c = '"' then st.add .inQuoted c
      else if c = ',' then st.save .startField
      else if c = '\n' ∨ c = '\r' then st.save .eatCrnl
      else st.add .inField c)
  | .eatCrnl => if c = '\n' ∨ c = '\r' then .ok st else .error .exception

/-- The end of a line (`core.py:108`). -/
def feedEol (st : RSt) : RSt := match st.mode with
  | .startRecord => st
  | .startField => st.save .startRecord
  | .inField => st.save .startRecord
  | .inQuoted => st
  | .quoteInQuoted => st.save .startRecord
  | .eatCrnl => { st with mode := .startRecord }

/-- The reader's state before a row (`core.py:108`). -/
def fresh : RSt := ⟨.startRecord, [], []⟩

/-- The rows that `csv.reader` gives for a text (`core.py:106-108`).  The file is cut into lines after `\n` and after a `\r` that no `\n` follows; `pending` says that the
current line has characters.  A row ends at a line end outside quotes; at the end of the file an unfinished quoted field is a row's last. -/
def rows : Str → RSt → Bool → Res (List (List Str))
  | [], st, pending =>
    let st := if pending then feedEol st else st
    if pending ∧ st.mode = .startRecord then .ok [st.fields]
    else if st.field ≠ [] ∨ st.mode = .inQuoted then .ok [st.fields ++ [st.field]]
    else .ok []
  | c :: s, st, _ => match feed st c with
    | .error e => .error e
    | .ok st =>
      if c = '\n' ∨ (c = '\r' ∧ s.head? ≠ some '\n') then
        let st := feedEol st
        if st.mode = .startRecord then match rows s fresh false with
          | .error e => .error e
          | .ok l => .ok (st.fields :: l)
        else rows s st false
      else rows s st true

/-- `list(csv.reader(file))` (`core.py:106-108`). -/
def readRows (text : Str) : Res (List (List Str)) := rows text fresh false

/-! ## `DataSet` -/

/-- What `_read_header_information` sets (`core.py:110-145`); the dictionaries are lists of pairs in which a later pair of a key stands for an earlier one. -/
structure Header where
  /-- `material` -/
  material : Str
  /-- `description` -/
  description : Str
  /-- `reference` -/
  reference : Str
  /-- `col_names` -/
  colNames : List Str
  /-- `col_display_symbols` -/
  colDisplaySymbols : List Str
  /-- `col_units` -/
  colUnits : List Str
  /-- `col_symbols` -/
  colSymbols : List Str
  deriving DecidableEq, Repr

/-- `next(lines)[1]` (`core.py:113-119`): `StopIteration` (here `exception`) without a row, `IndexError` without a second cell. -/
def second : List (List Str) → Res (Str × List (List Str))
  | [] => .error .exception
  | row :: l => match row[1]? with
    | none => .error .indexError
    | some s => .ok (s, l)

/-- `next(lines)` (`core.py:122-131`). -/
def nextRow : List (List Str) → Res (List Str × List (List Str))
  | [] => .error .exception
  | row :: l => .ok (row, l)

/-- `DataSet._read_header_information` (`core.py:106-145`).  The reader is lazy, but no row of it raises (`Csv.Props.C113_reader_total`). -/
def readHeader (text : Str) : Res Header := do
  let l ← readRows text
  let (m, l) ← second l
  let (d, l) ← second l
  let (r, l) ← second l
  let (n, l) ← nextRow l
  let (ds, l) ← nextRow l
  let (u, l) ← nextRow l
  let (s, _) ← nextRow l
  .ok ⟨m, d, r, n, ds, u, s⟩

/-- `dict(zip(keys, values))[key]` (`core.py:134-145`): the last pair counts. -/
def zipGet (keys values : List Str) (key : Str) : Res Str := match (keys.zip values).reverse.lookup key with
  | none => .error .keyError
  | some v => .ok v

/-- `names_dict[symbol]` (`core.py:134`). -/
def Header.name (h : Header) (symbol : Str) : Res Str := zipGet h.colSymbols h.colNames symbol

/-- `display_symbols_dict[symbol]` (`core.py:137-138`). -/
def Header.displaySymbol (h : Header) (symbol : Str) : Res Str := zipGet h.colSymbols h.colDisplaySymbols symbol

/-- `units_dict[symbol]` (`core.py:144`). -/
def Header.units (h : Header) (symbol : Str) : Res Str := zipGet h.colSymbols h.colUnits symbol

/-- `str(x)` for a whole number below one thousand as a float (`core.py:83`). -/
def floatText (n : Nat) : Str := (toString n ++ ".0").toList

/-- The rows of a template (`core.py:68-83`). -/
def templateRows (material : Str) : List (List Str) :=
  [["Name".toList, material],
   ["Description".toList, "<Add a data set description here.>".toList],
   ["Reference".toList, "<Add a reference to the source of the data set here.>".toList],
   ["Temperature".toList, "<parameter 1 name>".toList, "<parameter 2 name>".toList, "<parameter 3 name>".toList],
   ["T".toList, "<parameter 1 display symbol>".toList, "<parameter 2 display symbol>".toList, "<parameter 3 display symbol>".toList],
   ["K".toList, "<parameter 1 units>".toList, "<parameter 2 units>".toList, "<parameter 3 units>".toList],
   ["T".toList, "<parameter 1 symbol>".toList, "<parameter 2 symbol>".toList, "<parameter 3 symbol>".toList]] ++
  (List.range 10).map (fun i => [floatText (100 + i * 50), floatText i, floatText (10 + i), floatText (100 + i)])

/-- The files of a directory: names and texts (`core.py:62-65`). -/
abbrev Dir := List (Str × Str)

/-- Writing a file (`core.py:65`). -/
def Dir.put (name text : Str) (d : Dir) : Dir := (name, text) :: d.filter (fun e => e.1 ≠ name)

/-- `material.lower()` (`core.py:62`); simplification: only ASCII capitals are changed. -/
def lower (s : Str) : Str := s.map Char.toLower

/-- `DataSet.create_template(material, path)` (`core.py:53-86`) for an existing directory and a name without path separators; `show` opens a browser only. -/
def createTemplate (newer : Bool) (material : Str) (d : Dir) : Dir :=
  d.put ("dataset-".toList ++ lower material ++ ".csv".toList) (writeRows newer "\r\n".toList (templateRows material))

end Auxi.Csv
