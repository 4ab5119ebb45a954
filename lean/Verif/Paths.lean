import Verif.Business

/-!
# `get_path_relative_to_module` of `/repo/auxi/core/helpers.py:11-20` and `_get_default_data_path_` of `/repo/auxi/tools/chemistry/thermochemistry.py:541-550`

With the functions of Python's `posixpath` they call.  Paths are texts; the file system plays no part (none of these functions looks at it, except for the working directory, which is a parameter).
-/
namespace Auxi.Paths
open Auxi Auxi.Business

/-- `s.rstrip('/')` as used by `posixpath.dirname`, called in `/repo/auxi/core/helpers.py:17`. -/
def rstripSlash (s : Str) : Str := (s.reverse.dropWhile (fun c => c = '/')).reverse

/-- `posixpath.dirname` (called in `/repo/auxi/core/helpers.py:17`): up to the last slash, without trailing slashes unless there is nothing else. -/
def dirname (p : Str) : Str :=
  let head := (p.reverse.dropWhile (fun c => c ≠ '/')).reverse
  if head ≠ [] ∧ head.any (fun c => c ≠ '/') = true then rstripSlash head else head

/-- `posixpath.join` of two paths (called in `/repo/auxi/core/helpers.py:18`). -/
def join (a b : Str) : Str :=
  if b.head? = some '/' then b
  else if a = [] ∨ a.getLast? = some '/' then a ++ b
  else a ++ '/' :: b

/-- The number of slashes `posixpath.normpath` keeps at the start (called in `/repo/auxi/core/helpers.py:19`): exactly two stay two, any other number becomes one. -/
def initialSlashes : Str → Nat
  | ['/', '/'] => 2
  | '/' :: '/' :: c :: _ => if c = '/' then 1 else 2
  | '/' :: _ => 1
  | _ => 0

/-- One component in the loop of `posixpath.normpath` (called in `/repo/auxi/core/helpers.py:19`). -/
def normStep (initial : Nat) (new : List Str) (comp : Str) : List Str :=
  if comp = [] ∨ comp = ['.'] then new
  else if comp ≠ ['.', '.'] ∨ (initial = 0 ∧ new = []) ∨ new.getLast? = some ['.', '.'] then new ++ [comp]
  else new.dropLast

/-- `'/'.join(comps)` (`posixpath.normpath`, called in `/repo/auxi/core/helpers.py:19`). -/
def joined : List Str → Str
  | [] => []
  | [a] => a
  | a :: r => a ++ '/' :: joined r

/-- `posixpath.normpath` (called in `/repo/auxi/core/helpers.py:19`). -/
def normpath (p : Str) : Str :=
  if p = [] then ['.']
  else
    let comps := (splitSlash p).foldl (normStep (initialSlashes p)) []
    let r := List.replicate (initialSlashes p) '/' ++ joined comps
    if r = [] then ['.'] else r

/-- `posixpath.abspath` with the working directory `cwd` (called in `/repo/auxi/core/helpers.py:19`). -/
def abspath (cwd p : Str) : Str := normpath (if p.head? = some '/' then p else join cwd p)

/-- `get_path_relative_to_module` (`/repo/auxi/core/helpers.py:11-20`). -/
def relativeToModule (cwd module target : Str) : Str := abspath cwd (join (dirname module) target)

/-- `_get_default_data_path_` (`/repo/auxi/tools/chemistry/thermochemistry.py:541-550`) of a module file. -/
def defaultDataPath (cwd module : Str) : Str := abspath cwd (join (dirname module) "data/rao".toList)

end Auxi.Paths
