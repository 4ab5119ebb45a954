import Verif.Share

/-!
# What it means that objects that share parts survive being written and read

Independent of `jsonpickle`, of numbers of objects and of the text of the files: what is seen along every path from an object, and which paths lead to one and the same object.
-/
namespace Auxi.Share.Spec
open Share

/-- A step from an object to one of its parts: an attribute, or a position in a list. -/
inductive Step
  | attr (k : Str)
  | pos (i : ℕ)

/-- The part of a value that a step leads to. -/
def child {F : Type} (h : Heap F) : Step → Val F → Option (Val F)
  | .attr k, .ref a => match h[a]? with
    | some (.inst _ l) => l.lookup k
    | _ => none
  | .pos i, .ref a => match h[a]? with
    | some (.list l) => l[i]?
    | _ => none
  | _, _ => none

/-- The value that a path leads to. -/
def follow {F : Type} (h : Heap F) : List Step → Val F → Option (Val F)
  | [], v => some v
  | s :: p, v => (child h s v).bind (follow h p)

/-- What is seen at a value without looking at its parts. -/
inductive Face (F : Type)
  | none
  | bool (b : Bool)
  | num (x : F)
  | str (s : Str)
  | list (n : ℕ)
  | inst (cls : Str)
  deriving DecidableEq

/-- The face of a value. -/
def face {F : Type} (h : Heap F) : Val F → Option (Face F)
  | .none => some .none
  | .bool b => some (.bool b)
  | .num x => some (.num x)
  | .str s => some (.str s)
  | .ref a => match h[a]? with
    | some (.list l) => some (.list l.length)
    | some (.inst c _) => some (.inst c)
    | none => none

/-- What is seen at the end of a path. -/
def look {F : Type} (h : Heap F) (p : List Step) (v : Val F) : Option (Face F) := (follow h p v).bind (face h)

/-- Two paths from a value lead to one and the same object (`is`). -/
def Meet {F : Type} (h : Heap F) (v : Val F) (p q : List Step) : Prop := ∃ a, follow h p v = some (.ref a) ∧ follow h q v = some (.ref a)

/-- Two values cannot be told apart: the same is seen along every path, and the same paths meet. -/
def Same {F : Type} (h : Heap F) (v : Val F) (h' : Heap F) (v' : Val F) : Prop :=
  (∀ p, look h' p v' = look h p v) ∧ ∀ p q, Meet h' v' p q ↔ Meet h v p q

/-- The values in an object. -/
def parts {F : Type} : Node F → List (Val F)
  | .inst _ l => l.map (·.2)
  | .list l => l

/-- A heap as Python makes it: no dangling references, no attribute occurs twice in an instance, and no attribute name is reserved by `jsonpickle` (`py/...`). -/
structure Sound {F : Type} (h : Heap F) : Prop where
  closed : ∀ o ∈ h, ∀ a, Val.ref a ∈ parts o → a < h.length
  distinct : ∀ c l, Node.inst c l ∈ h → (l.map (·.1)).Nodup
  free : ∀ c l, Node.inst c l ∈ h → ∀ e ∈ l, ¬ "py/".toList <+: e.1

/-- The attributes of every instance were set in the alphabetical order of their names. -/
def Alphabetical {F : Type} (h : Heap F) : Prop := ∀ c l, Node.inst c l ∈ h → l.Pairwise (fun x y => Json.strLe x.1 y.1 = true)

end Auxi.Share.Spec
