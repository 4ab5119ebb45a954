import Verif.Basic

/-!
# Model of the JSON files that the code writes and reads

`/repo/auxi/core/objects.py:22-46` and `/repo/auxi/tools/chemistry/thermochemistry.py:707-717`, with the parts of Python's `json` module that they (and `jsonpickle`) call:
`json.dumps(o, sort_keys=True, indent=4, separators=(',', ': '))` and `json.loads`.  A file is its decoded text.

Simplifications: the reader takes the longest run of the characters of numbers where Python matches a regular expression for numbers; escaped surrogates that are not a pair are
refused (Python makes a text that has no encoding); `NaN` and `Infinity` and Python's limit on nesting are left out.
-/
namespace Auxi.Json

/-- A JSON document (`objects.py:23`); the number type is a parameter. -/
inductive J (F : Type)
  | null
  | bool (b : Bool)
  | num (x : F)
  | str (s : Str)
  | arr (l : List (J F))
  | obj (l : List (Str × J F))

/-- Is the character one of those that make up the text of a number (`objects.py:24,45`)? -/
def numChar (c : Char) : Bool := c.isDigit || c == '-' || c == '+' || c == '.' || c == 'e' || c == 'E'

/-- `repr` and `float` of the numbers (`objects.py:24,45`): Python promises that a finite float is read back from its `repr` exactly. -/
structure Floats (F : Type) where
  /-- `repr(x)` -/
  repr : F → Str
  /-- `float(s)` -/
  float : Str → Option F
  /-- the first character is a digit or a minus sign -/
  head : ∀ x, ∃ c s, repr x = c :: s ∧ (c.isDigit = true ∨ c = '-')
  /-- all characters are those of numbers -/
  chars : ∀ x, ∀ c ∈ repr x, numChar c = true
  /-- the number is read back -/
  exact : ∀ x, float (repr x) = some x

/-! ## Writing -/

/-- The hexadecimal digit of a number below 16 (`objects.py:24`). -/
def hexDigit (n : Nat) : Char := if n < 10 then Char.ofNat (48 + n) else Char.ofNat (87 + n)

/-- `'\\u{0:04x}'` (`objects.py:24`). -/
def hex4 (n : Nat) : Str := ['\\', 'u', hexDigit (n / 4096 % 16), hexDigit (n / 256 % 16), hexDigit (n / 16 % 16), hexDigit (n % 16)]

/-- A character of a string (`objects.py:24`, `json.encoder.py_encode_basestring_ascii`). -/
def escape (c : Char) : Str :=
  if c = '"' then ['\\', '"']
  else if c = '\\' then ['\\', '\\']
  else if c = '\n' then ['\\', 'n']
  else if c = '\r' then ['\\', 'r']
  else if c = '\t' then ['\\', 't']
  else if c = Char.ofNat 12 then ['\\', 'f']
  else if c = Char.ofNat 8 then ['\\', 'b']
  else if 32 ≤ c.toNat ∧ c.toNat ≤ 126 then [c]
  else if c.toNat < 65536 then hex4 c.toNat
  else hex4 (55296 + (c.toNat - 65536) / 1024) ++ hex4 (56320 + (c.toNat - 65536) % 1024)

/-- A string (`objects.py:24`). -/
def quote (s : Str) : Str := '"' :: s.flatMap escape ++ ['"']

/-- A line break and the indentation (`objects.py:24`). -/
def newline (ind : Nat) : Str := '\n' :: List.replicate (4 * ind) ' '

/-- `s < t` or `s = t` for Python strings: by code points (`sort_keys=True`, `objects.py:24`). -/
def strLe : Str → Str → Bool
  | [], _ => true
  | _ :: _, [] => false
  | a :: s, b :: t => if a.toNat < b.toNat then true else if b.toNat < a.toNat then false else strLe s t

/-- Insertion into a sorted list (`sort_keys=True`, `objects.py:24`). -/
def insertKey {α : Type} (e : Str × α) : List (Str × α) → List (Str × α)
  | [] => [e]
  | d :: l => if strLe e.1 d.1 then e :: d :: l else d :: insertKey e l

/-- `sorted(dct.items())` (`sort_keys=True`, `objects.py:24`). -/
def sortKeys {α : Type} : List (Str × α) → List (Str × α)
  | [] => []
  | e :: l => insertKey e (sortKeys l)

mutual
/-- The document with the keys of every dictionary sorted (`sort_keys=True`, `objects.py:24`). -/
def sorted {F : Type} : J F → J F
  | .arr l => .arr (sortedItems l)
  | .obj l => .obj (sortKeys (sortedPairs l))
  | .null => .null
  | .bool b => .bool b
  | .num x => .num x
  | .str s => .str s
/-- The items of a list. -/
def sortedItems {F : Type} : List (J F) → List (J F)
  | [] => []
  | j :: l => sorted j :: sortedItems l
/-- The values of a dictionary. -/
def sortedPairs {F : Type} : List (Str × J F) → List (Str × J F)
  | [] => []
  | (k, j) :: l => (k, sorted j) :: sortedPairs l
end

mutual
/-- The text of a document at a nesting level (`objects.py:24`). -/
def dump {F : Type} (N : Floats F) (ind : Nat) : J F → Str
  | .null => "null".toList
  | .bool b => if b then "true".toList else "false".toList
  | .num x => N.repr x
  | .str s => quote s
  | .arr l => match l with
    | [] => ['[', ']']
    | j :: l => '[' :: (newline (ind + 1) ++ (dump N (ind + 1) j ++ dumpItems N (ind + 1) l (newline ind ++ [']'])))
  | .obj l => match l with
    | [] => ['{', '}']
    | (k, j) :: l => '{' :: (newline (ind + 1) ++ (quote k ++ ':' :: ' ' :: (dump N (ind + 1) j ++ dumpPairs N (ind + 1) l (newline ind ++ ['}']))))
/-- The items of a list after the first, and the end of the list. -/
def dumpItems {F : Type} (N : Floats F) (ind : Nat) : List (J F) → Str → Str
  | [], z => z
  | j :: l, z => ',' :: (newline ind ++ (dump N ind j ++ dumpItems N ind l z))
/-- The entries of a dictionary after the first, and the end of the dictionary. -/
def dumpPairs {F : Type} (N : Floats F) (ind : Nat) : List (Str × J F) → Str → Str
  | [], z => z
  | (k, j) :: l, z => ',' :: (newline ind ++ (quote k ++ ':' :: ' ' :: (dump N ind j ++ dumpPairs N ind l z)))
end

/-- `json.dumps(o, sort_keys=True, indent=4, separators=(',', ': '))` (`objects.py:24-25`). -/
def dumps {F : Type} (N : Floats F) (j : J F) : Str := dump N 0 (sorted j)

/-! ## Reading -/

/-- White space (`objects.py:45`, `json.decoder.WHITESPACE`). -/
def skip : Str → Str
  | [] => []
  | c :: s => if c = ' ' ∨ c = '\t' ∨ c = '\n' ∨ c = '\r' then skip s else c :: s

/-- The reader inside a string (`objects.py:45`, `json.decoder.scanstring`). -/
inductive Mode
  /-- outside an escape -/
  | plain
  /-- after a backslash -/
  | esc
  /-- inside `\uXXXX`: digits so far, their value, the first half of a pair -/
  | hex (k v : Nat) (hi : Option Nat)
  /-- after the first half of a pair -/
  | hi (h : Nat)
  /-- after the first half of a pair and a backslash -/
  | hiEsc (h : Nat)

/-- A hexadecimal digit (`objects.py:45`). -/
def unhex (c : Char) : Option Nat :=
  if 48 ≤ c.toNat ∧ c.toNat ≤ 57 then some (c.toNat - 48)
  else if 97 ≤ c.toNat ∧ c.toNat ≤ 102 then some (c.toNat - 87)
  else if 65 ≤ c.toNat ∧ c.toNat ≤ 70 then some (c.toNat - 55)
  else none

/-- The character after a backslash (`objects.py:45`, `json.decoder.BACKSLASH`). -/
def unescape (c : Char) : Option Char :=
  if c = '"' then some '"'
  else if c = '\\' then some '\\'
  else if c = '/' then some '/'
  else if c = 'b' then some (Char.ofNat 8)
  else if c = 'f' then some (Char.ofNat 12)
  else if c = 'n' then some '\n'
  else if c = 'r' then some '\r'
  else if c = 't' then some '\t'
  else none

/-- The rest of a string after the opening quote, and the text after the closing quote (`objects.py:45`). -/
def scan : Str → Mode → Str → Option (Str × Str)
  | [], _, _ => none
  | c :: s, .plain, acc =>
    if c = '"' then some (acc, s)
    else if c = '\\' then scan s .esc acc
    else if c.toNat < 32 then none
    else scan s .plain (acc ++ [c])
  | c :: s, .esc, acc =>
    if c = 'u' then scan s (.hex 0 0 none) acc
    else match unescape c with
      | none => none
      | some d => scan s .plain (acc ++ [d])
  | c :: s, .hex k v hi, acc => match unhex c with
    | none => none
    | some d =>
      if k < 3 then scan s (.hex (k + 1) (v * 16 + d) hi) acc
      else match hi with
        | none =>
          if 55296 ≤ v * 16 + d ∧ v * 16 + d < 56320 then scan s (.hi (v * 16 + d)) acc
          else if 56320 ≤ v * 16 + d ∧ v * 16 + d < 57344 then none
          else scan s .plain (acc ++ [Char.ofNat (v * 16 + d)])
        | some h =>
          if 56320 ≤ v * 16 + d ∧ v * 16 + d < 57344 then scan s .plain (acc ++ [Char.ofNat (65536 + (h - 55296) * 1024 + (v * 16 + d - 56320))])
          else none
  | c :: s, .hi h, acc => if c = '\\' then scan s (.hiEsc h) acc else none
  | c :: s, .hiEsc h, acc => if c = 'u' then scan s (.hex 0 0 (some h)) acc else none

/-- `d[k] = v` for a dictionary as a list of entries (`objects.py:45`). -/
def put {α : Type} (k : Str) (v : α) : List (Str × α) → List (Str × α)
  | [] => [(k, v)]
  | e :: l => if e.1 = k then (k, v) :: l else e :: put k v l

/-- `dict(pairs)` (`objects.py:45`). -/
def dictOf {α : Type} (l : List (Str × α)) : List (Str × α) := l.foldl (fun d e => put e.1 e.2 d) []

mutual
/-- A value at the start of a text, and the text after it (`objects.py:45`, `json.scanner`); `n` bounds the number of nested calls. -/
def value {F : Type} (N : Floats F) : Nat → Str → Option (J F × Str)
  | 0, _ => none
  | _, [] => none
  | n + 1, c :: s =>
    if c = '"' then match scan s .plain [] with
      | none => none
      | some (t, s) => some (.str t, s)
    else if c = '[' then match skip s with
      | [] => none
      | d :: s' => if d = ']' then some (.arr [], s') else match items N n (d :: s') with
        | none => none
        | some (l, s) => some (.arr l, s)
    else if c = '{' then match skip s with
      | [] => none
      | d :: s' => if d = '}' then some (.obj [], s') else match pairs N n (d :: s') with
        | none => none
        | some (l, s) => some (.obj (dictOf l), s)
    else if "null".toList.isPrefixOf (c :: s) then some (.null, (c :: s).drop 4)
    else if "true".toList.isPrefixOf (c :: s) then some (.bool true, (c :: s).drop 4)
    else if "false".toList.isPrefixOf (c :: s) then some (.bool false, (c :: s).drop 5)
    else if c.isDigit || c == '-' then match N.float ((c :: s).takeWhile numChar) with
      | none => none
      | some x => some (.num x, (c :: s).dropWhile numChar)
    else none
/-- The items of a list up to the bracket (`objects.py:45`, `json.decoder.JSONArray`). -/
def items {F : Type} (N : Floats F) : Nat → Str → Option (List (J F) × Str)
  | 0, _ => none
  | n + 1, s => match value N n s with
    | none => none
    | some (j, s) => match skip s with
      | [] => none
      | c :: s =>
        if c = ']' then some ([j], s)
        else if c = ',' then match items N n (skip s) with
          | none => none
          | some (l, s) => some (j :: l, s)
        else none
/-- The entries of a dictionary up to the brace (`objects.py:45`, `json.decoder.JSONObject`). -/
def pairs {F : Type} (N : Floats F) : Nat → Str → Option (List (Str × J F) × Str)
  | 0, _ => none
  | _, [] => none
  | n + 1, c :: s => if c ≠ '"' then none else match scan s .plain [] with
    | none => none
    | some (k, s) => match skip s with
      | [] => none
      | c :: s => if c ≠ ':' then none else match value N n (skip s) with
        | none => none
        | some (j, s) => match skip s with
          | [] => none
          | c :: s =>
            if c = '}' then some ([(k, j)], s)
            else if c = ',' then match pairs N n (skip s) with
              | none => none
              | some (l, s) => some ((k, j) :: l, s)
            else none
end

/-- `json.loads(text)` (`objects.py:23,45`, `thermochemistry.py:703-704`).  Every call of the reader consumes a character or is followed by one that does, so that the bound is never
met. -/
def loads {F : Type} (N : Floats F) (s : Str) : Res (J F) := match value N (2 * s.length + 2) (skip s) with
  | none => .error .valueError
  | some (j, r) => if skip r = [] then .ok j else .error .valueError

end Auxi.Json
