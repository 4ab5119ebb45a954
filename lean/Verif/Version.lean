import Verif.Basic

/-!
# The version update: `/repo/scripts/update_version.py`

A text is a list of characters.  Encodings and the translation of line ends are left out; so are messages (lines 8-9, 20, 25, 39, 55).
-/
namespace Auxi.Version
open Auxi

/-- `s.replace(old, new)` of Python for a non-empty `old`: the leftmost occurrences that do not overlap
(`/repo/scripts/update_version.py:31,42-44,58-66`). -/
def replaceFrom (old new : Str) : Nat → Str → Str
  | 0, s => s
  | _ + 1, [] => []
  | k + 1, c :: t => if old.isPrefixOf (c :: t) then new ++ replaceFrom old new k ((c :: t).drop old.length) else c :: replaceFrom old new k t

/-- `s.replace(old, new)` (`/repo/scripts/update_version.py:31,42-44,58-66`); an empty `old` is found before every character and at the end. -/
def replaceAll (old new s : Str) : Str :=
  if old = [] then new ++ s.flatMap (fun c => c :: new) else replaceFrom old new s.length s

/-- `s.index(p)` (`/repo/scripts/update_version.py:14-15`): the place of the first occurrence; `ValueError` if there is none. -/
def indexOf (p : Str) : Str → Res Nat
  | [] => if p = [] then .ok 0 else .error .valueError
  | c :: t => if p.isPrefixOf (c :: t) then .ok 0 else (indexOf p t).map (· + 1)

/-- `/repo/scripts/update_version.py:14-17`: the old version in the text of `setup.py`, and the text with the new one. -/
def setupText (new content : Str) : Res (Str × Str) := do
  let ix ← indexOf "version='".toList content
  let a := ix + 9
  let n ← indexOf ['\''] (content.drop a)
  pure ((content.drop a).take n, content.take a ++ new ++ content.drop (a + n))

/-- Where a file is: `../setup.py`, the directory of the scripts, under `../auxi`, under `../doc`, or elsewhere
(`/repo/scripts/update_version.py:12,28,35,51`). -/
inductive Place
  | setup | scripts | auxi | doc | elsewhere
  deriving DecidableEq

/-- A file: where it is, its name, its text (`/repo/scripts/update_version.py:28-32,35-47,51-68`). -/
structure File where
  place : Place
  name : Str
  text : Str
  deriving DecidableEq

/-- `/repo/scripts/update_version.py:42-44`. -/
def auxiText (old new s : Str) : Str := replaceAll ("__version__ = '".toList ++ old ++ ['\'']) ("__version__ = '".toList ++ new ++ ['\'']) s

/-- `/repo/scripts/update_version.py:58-66`. -/
def docText (old new s : Str) : Str :=
  let s := replaceAll ("copyright = '2015-2016, ".toList ++ old ++ ['\'']) ("copyright = '2015-2016, ".toList ++ new ++ ['\'']) s
  let s := replaceAll ("version = '".toList ++ old ++ ['\'']) ("version = '".toList ++ new ++ ['\'']) s
  replaceAll ("release = '".toList ++ old ++ ['\'']) ("release = '".toList ++ new ++ ['\'']) s

/-- What the update makes of one file (`/repo/scripts/update_version.py:28-69`); `glob` does not find names that begin with a dot. -/
def fileText (old new : Str) (f : File) : Str :=
  match f.place with
  | .scripts => if ".sh".toList.isSuffixOf f.name ∧ f.name.head? ≠ some '.' then replaceAll old new f.text else f.text
  | .auxi => if ".py".toList.isSuffixOf f.name then auxiText old new f.text else f.text
  | .doc => if ".py".toList.isSuffixOf f.name then docText old new f.text else f.text
  | _ => f.text

/-- `/repo/scripts/update_version.py:6-69` the whole update of a source tree (`setup.py` and the other files): the new tree,
or `ValueError` before anything is written. -/
def update (new : Str) (t : Str × List File) : Res (Str × List File) := do
  let (old, s) ← setupText new t.1
  pure (s, t.2.map (fun f => { f with text := fileText old new f }))

/-- One update after the other (`/repo/scripts/update_version.py:6-69`). -/
def updates : List Str → Str × List File → Res (Str × List File)
  | [], t => .ok t
  | v :: vs, t => match update v t with
    | .error e => .error e
    | .ok t' => updates vs t'

end Auxi.Version
