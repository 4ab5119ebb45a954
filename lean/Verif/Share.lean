import Verif.Persist

/-!
# Model of writing and reading objects that share parts

`/repo/auxi/core/objects.py:17-46` (`Object.__str__`, `write`, `read`) for objects that refer to each other in any way: the same object in several attributes, and cycles.  `Persist` models trees; here the
objects live in a heap, and `jsonpickle` numbers every instance and every list when it first meets it and writes `{"py/id": n}` when it meets it again (`jsonpickle.pickler.Pickler._mkref`,
`jsonpickle.unpickler.Unpickler._restore_id`).

Simplifications: values are `None`, booleans, numbers, strings, and references to instances and lists; dictionaries, enumeration members and bound methods are left out; the classes can be imported.
Whether `jsonpickle` visits the attributes of an instance in alphabetical order (its early versions: `sorted(obj.items())`) or in the order in which they were set (its later versions) is a
parameter; `setup.py:62` asks for no particular version.  When it reads, it visits them in the order of the file in both cases, because the file is sorted (`objects.py:24`).
-/
namespace Auxi.Share
open Json Persist

/-- A Python value (`objects.py:22-46`): an address stands for an instance or a list. -/
inductive Val (F : Type)
  | none
  | bool (b : Bool)
  | num (x : F)
  | str (s : Str)
  | ref (a : ℕ)
  deriving DecidableEq

/-- What is found at an address (`objects.py:22-46`): an instance with its attributes in the order in which they were set, or a list. -/
inductive Node (F : Type)
  | inst (cls : Str) (attrs : List (Str × Val F))
  | list (items : List (Val F))

/-- The heap (`objects.py:22-46`): the object at an address is found at that position. -/
abbrev Heap (F : Type) := List (Node F)

/-- Numbers of the files, with whole numbers for `py/id` (`objects.py:24,45`). -/
structure Ids (F : Type) extends Floats F where
  /-- `int` as a number of the file -/
  ofNat : ℕ → F
  /-- the whole number -/
  toNat : F → Option ℕ
  /-- whole numbers are read back -/
  back : ∀ n, toNat (ofNat n) = some n

/-- `jsonpickle.tags.ID` (`objects.py:23,45`). -/
def idTag : Str := "py/id".toList

/-- The order in which the attributes of an instance are visited by `jsonpickle.encode` (`objects.py:23`). -/
def visit {F : Type} (byName : Bool) (l : List (Str × Val F)) : List (Str × Val F) := if byName then sortKeys l else l

/-- The items of a list, one after the other (`objects.py:23`). -/
def encItems {F : Type} (f : Val F → List ℕ → Option (J F × List ℕ)) : List (Val F) → List ℕ → Option (List (J F) × List ℕ)
  | [], s => some ([], s)
  | v :: l, s => match f v s with
    | none => none
    | some (j, s1) => match encItems f l s1 with
      | none => none
      | some (js, s2) => some (j :: js, s2)

/-- The attributes of an instance, one after the other (`objects.py:23`). -/
def encPairs {F : Type} (f : Val F → List ℕ → Option (J F × List ℕ)) : List (Str × Val F) → List ℕ → Option (List (Str × J F) × List ℕ)
  | [], s => some ([], s)
  | (k, v) :: l, s => match f v s with
    | none => none
    | some (j, s1) => match encPairs f l s1 with
      | none => none
      | some (js, s2) => some ((k, j) :: js, s2)

/-- A value as `jsonpickle.encode` writes it (`objects.py:23`), with the addresses met so far, in the order in which they were met: a new instance or list is numbered before its parts are visited; one met
before is written as its number, counted from 1.  The first argument bounds the depth (a depth beyond the number of objects cannot occur). -/
def enc {F : Type} (I : Ids F) (byName : Bool) (h : Heap F) : ℕ → Val F → List ℕ → Option (J F × List ℕ)
  | _, .none, s => some (.null, s)
  | _, .bool b, s => some (.bool b, s)
  | _, .num x, s => some (.num x, s)
  | _, .str t, s => some (.str t, s)
  | 0, .ref a, s => match s.idxOf? a with
    | some i => some (.obj [(idTag, .num (I.ofNat (i + 1)))], s)
    | none => none
  | n + 1, .ref a, s => match s.idxOf? a with
    | some i => some (.obj [(idTag, .num (I.ofNat (i + 1)))], s)
    | none => match h[a]? with
      | none => none
      | some (.list l) => match encItems (enc I byName h n) l (s ++ [a]) with
        | none => none
        | some (js, s') => some (.arr js, s')
      | some (.inst c l) => match encPairs (enc I byName h n) (visit byName l) (s ++ [a]) with
        | none => none
        | some (js, s') => some (.obj ((tag, .str c) :: js), s')

/-- `str(o)` (`objects.py:22-26`) of the object at an address. -/
def text {F : Type} (I : Ids F) (byName : Bool) (h : Heap F) (a : ℕ) : Option Str := (enc I byName h h.length (.ref a) []).map (fun r => dumps I.toFloats r.1)

/-- The number in `{"py/id": n}` (`objects.py:45`). -/
def idOf {F : Type} (I : Ids F) (l : List (Str × J F)) : Option ℕ := match l.lookup idTag with
  | some (.num x) => I.toNat x
  | _ => none

mutual
/-- `jsonpickle.decode` of a document (`objects.py:45`), with the objects made so far: an instance or a list is made and numbered before its parts; a number stands for the object with that number.
Dictionaries (no class name) are left out. -/
def dec {F : Type} (I : Ids F) : J F → Heap F → Option (Val F × Heap F)
  | .null, m => some (.none, m)
  | .bool b, m => some (.bool b, m)
  | .num x, m => some (.num x, m)
  | .str s, m => some (.str s, m)
  | .arr l, m => match decItems I l (m ++ [.list []]) with
    | none => none
    | some (vs, m') => some (.ref m.length, m'.set m.length (.list vs))
  | .obj l, m => match idOf I l with
    | some i => if 1 ≤ i ∧ i ≤ m.length then some (.ref (i - 1), m) else none
    | none => match tagOf l with
      | none => none
      | some c => match decAttrs I l (m ++ [.inst c []]) with
        | none => none
        | some (vs, m') => some (.ref m.length, m'.set m.length (.inst c vs))
/-- The items of a list. -/
def decItems {F : Type} (I : Ids F) : List (J F) → Heap F → Option (List (Val F) × Heap F)
  | [], m => some ([], m)
  | j :: l, m => match dec I j m with
    | none => none
    | some (v, m1) => match decItems I l m1 with
      | none => none
      | some (vs, m2) => some (v :: vs, m2)
/-- The attributes of an instance, in the order of the file: reserved keys are left out. -/
def decAttrs {F : Type} (I : Ids F) : List (Str × J F) → Heap F → Option (List (Str × Val F) × Heap F)
  | [], m => some ([], m)
  | (k, j) :: l, m => if reserved k then decAttrs I l m else match dec I j m with
    | none => none
    | some (v, m1) => match decAttrs I l m1 with
      | none => none
      | some (vs, m2) => some ((k, v) :: vs, m2)
end

/-- `Object.read` (`objects.py:41-47`) of the text of a file, for classes with the empty `_init` (`objects.py:34-35`): the value read and the objects made. -/
def read {F : Type} (I : Ids F) (s : Str) : Option (Val F × Heap F) := match loads I.toFloats s with
  | .error _ => none
  | .ok j => dec I j []

end Auxi.Share
