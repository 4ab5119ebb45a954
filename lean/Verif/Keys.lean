import Verif.Printout

/-!
# Model of objects as keys of dictionaries and elements of sets

`/repo/auxi/core/objects.py:28-29`: the hash of an object is the hash of its text; there is no `__eq__`, so equality is identity.  Python's `dict` (and `set`) is modelled as far as it is
visible: an entry keeps the hash that its key had when it was entered, and is found by a key with that hash that is equal to its key.  Simplification: the order of probing, and that Python
asks for equality only after the stored hashes are equal, are not visible.  The hash of a text (`hash(str(self))`, different in every run of Python) and the text of an object are parameters.
-/
namespace Auxi.Keys

/-- An entry of a dictionary: the hash at the time of entry, the key, the value. -/
structure Entry (α : Type) where
  /-- stored hash -/
  hash : ℤ
  /-- identity of the key -/
  key : ℕ
  /-- the value -/
  value : α

/-- The objects of a program: the state of each. -/
abbrev World (σ : Type) := ℕ → σ

variable {σ α : Type}

/-- `Object.__hash__` (`objects.py:28-29`): an error of `__str__` comes out. -/
def hashOf (hash : Str → ℤ) (text : σ → Res Str) (w : World σ) (o : ℕ) : Res ℤ := match text (w o) with
  | .error e => .error e
  | .ok s => .ok (hash s)

/-- Whether an entry is that of a key with this hash (`objects.py:17-29`: no `__eq__`). -/
def hit (h : ℤ) (o : ℕ) (e : Entry α) : Bool := decide (e.hash = h) && decide (e.key = o)

/-- `d[o]` (`objects.py:28-29`). -/
def get (hash : Str → ℤ) (text : σ → Res Str) (w : World σ) (d : List (Entry α)) (o : ℕ) : Res α := match hashOf hash text w o with
  | .error e => .error e
  | .ok h => match d.find? (hit h o) with
    | none => .error .keyError
    | some e => .ok e.value

/-- `d[o] = v` (`objects.py:28-29`): the value of the entry is replaced, or an entry added at the end. -/
def set (hash : Str → ℤ) (text : σ → Res Str) (w : World σ) (d : List (Entry α)) (o : ℕ) (v : α) : Res (List (Entry α)) := match hashOf hash text w o with
  | .error e => .error e
  | .ok h => .ok (if d.any (hit h o) then d.map (fun e => if hit h o e then { e with value := v } else e) else d ++ [⟨h, o, v⟩])

/-- `del d[o]` (`objects.py:28-29`). -/
def del (hash : Str → ℤ) (text : σ → Res Str) (w : World σ) (d : List (Entry α)) (o : ℕ) : Res (List (Entry α)) := match hashOf hash text w o with
  | .error e => .error e
  | .ok h => if d.any (hit h o) then .ok (d.filter (fun e => !hit h o e)) else .error .keyError

/-- What a program does with a dictionary and its keys. -/
inductive Op (σ α : Type)
  /-- `d[o] = v` -/
  | set (o : ℕ) (v : α)
  /-- `del d[o]` -/
  | del (o : ℕ)
  /-- the object `o` changes -/
  | change (o : ℕ) (s : σ)

/-- One step; a call that raises leaves the dictionary as it was (`objects.py:28-29`). -/
def step (hash : Str → ℤ) (text : σ → Res Str) (x : World σ × List (Entry α)) : Op σ α → World σ × List (Entry α)
  | .set o v => match set hash text x.1 x.2 o v with
    | .error _ => x
    | .ok d => (x.1, d)
  | .del o => match del hash text x.1 x.2 o with
    | .error _ => x
    | .ok d => (x.1, d)
  | .change o s => (Function.update x.1 o s, x.2)

/-- A history (`objects.py:28-29`). -/
def run (hash : Str → ℤ) (text : σ → Res Str) (x : World σ × List (Entry α)) (ops : List (Op σ α)) : World σ × List (Entry α) := ops.foldl (step hash text) x

end Auxi.Keys
