import Verif.Basic
import Mathlib.Data.List.Defs

/-!
# What `setup.py` installs: `/repo/setup.py`

Files are paths from the root of the source tree.  The behaviour of setuptools (`build_py`: the modules `*.py` of the packages listed, and the files of the packages listed that `package_data` names) is part of
the model; names that are not installed as files of the package (`../*.md`, documents beside it) are left out.
-/
namespace Auxi.Install
open Auxi

/-- A path: its directories and its name (`/repo/setup.py:28-61`). -/
abbrev Path := List Str

/-- A text cut at a character (`/repo/setup.py:28-61`: the names of packages at `.`, patterns at `/`). -/
def split (c : Char) : Str → List Str
  | [] => [[]]
  | d :: s => if d = c then [] :: split c s else match split c s with
    | [] => [[d]]
    | w :: ws => (d :: w) :: ws

/-- A name against a pattern with `*`, as `glob` does it (`/repo/setup.py:42-61`). -/
def glob : Str → Str → Bool
  | [], s => s.isEmpty
  | c :: p, s =>
    if c = '*' then s.tails.any (fun t => glob p t)
    else match s with
      | [] => false
      | d :: t => c = d && glob p t

/-- A name in a directory against a pattern: a name that begins with a dot is found only by a pattern that does (`/repo/setup.py:42-61`). -/
def nameMatches (p s : Str) : Bool := glob p s && (s.head? ≠ some '.' || p.head? = some '.')

/-- A path against the pattern of a path (`/repo/setup.py:42-61`). -/
def pathMatches : List Str → Path → Bool
  | [], [] => true
  | p :: ps, n :: ns => nameMatches p n && pathMatches ps ns
  | _, _ => false

/-- The arguments `packages` and `package_data` of `setup`, names of packages and patterns cut up (`/repo/setup.py:28-61`). -/
structure Setup where
  packages : List Path
  data : List (Path × List (List Str))

/-- A module of the package (`/repo/setup.py:28-40`). -/
def isModule (p f : Path) : Bool := f.dropLast = p && nameMatches "*.py".toList (f.getLastD [])

/-- A file of the package that `package_data` names (`/repo/setup.py:41-61`). -/
def isData (s : Setup) (p f : Path) : Bool := p.isPrefixOf f && s.data.any (fun e => e.1 = p && e.2.any (fun q => pathMatches q (f.drop p.length)))

/-- The files that are installed (`/repo/setup.py:11-65`). -/
def install (s : Setup) (tree : List Path) : List Path := tree.filter (fun f => s.packages.any (fun p => isModule p f || isData s p f))

/-- `import` of a module: the file of the module or that of the package (`/repo/setup.py:28-40`). -/
def found (tree : List Path) (m : Path) : Bool := decide (m.dropLast ++ [m.getLastD [] ++ ".py".toList] ∈ tree) || decide (m ++ ["__init__.py".toList] ∈ tree)

/-- `/repo/setup.py:28-61` as shipped. -/
def shipped : Setup where
  packages := ["auxi", "auxi.core", "auxi.modelling", "auxi.modelling.process", "auxi.modelling.process.materials", "auxi.modelling.financial", "auxi.modelling.business", "auxi.tools", "auxi.tools.chemistry",
    "auxi.tools.materialphysicalproperties", "auxi.tools.transportphenomena", "auxi.tools.transportphenomena.heattransfer"].map (fun s => split '.' s.toList)
  data := [("auxi.tools.chemistry", ["data/*.json", "data/rao/*.json", "data/nist/*.json"]), ("auxi.modelling.process.materials", ["data/*.txt"]),
    ("auxi.tools.materialphysicalproperties", ["data/*.json", "data/*.csv", "data/*.pdf"]), ("auxi.examples", []),
    ("auxi", ["doc/*.pdf", "examples/*.ipynb", "examples/*.py", "examples/readme", "examples/temp/*.csv", "examples/modelling/readme", "examples/tools/readme", "examples/tools/materialphysicalproperties/*.ipynb",
      "examples/tools/materialphysicalproperties/data/readme", "examples/tools/transportphenomena/heattransfer/*.ipynb"])].map (fun e => (split '.' e.1.toList, e.2.map (fun q => split '/' q.toList)))

end Auxi.Install
