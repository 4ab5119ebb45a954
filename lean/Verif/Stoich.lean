import Mathlib.Data.Rat.Defs
import Mathlib.Algebra.Order.Field.Rat
import Mathlib.Algebra.BigOperators.Group.List.Basic
import Verif.Basic

/-!
# Model of `/repo/auxi/tools/chemistry/stoichiometry.py`

Formula parsing (the PEG grammar interpreted by `parsimonious`), the visitor that builds the group objects, atom counting,
and the stoichiometry functions.  Floats are exact rationals.
-/
namespace Auxi.Stoich

/-! ## Characters -/

/-- `[A-Z]` in `stoichiometry.py:175`. -/
def isUp (c : Char) : Bool := decide ('A'.toNat ≤ c.toNat ∧ c.toNat ≤ 'Z'.toNat)
/-- `[a-z]` in `stoichiometry.py:175`. -/
def isLow (c : Char) : Bool := decide ('a'.toNat ≤ c.toNat ∧ c.toNat ≤ 'z'.toNat)
/-- `[0-9]` in `stoichiometry.py:177`. -/
def isDig (c : Char) : Bool := decide ('0'.toNat ≤ c.toNat ∧ c.toNat ≤ '9'.toNat)
/-- `[A-Za-z0-9]` in `stoichiometry.py:176`. -/
def isAlnum (c : Char) : Bool := isUp c || isLow c || isDig c
/-- The characters removed by Python's `str.strip()` (`str.isspace`), used in `stoichiometry.py:362,380,396`. -/
def isSpace (c : Char) : Bool :=
  decide (c.toNat ∈ [0x9, 0xa, 0xb, 0xc, 0xd, 0x1c, 0x1d, 0x1e, 0x1f, 0x20, 0x85, 0xa0, 0x1680, 0x2000, 0x2001, 0x2002, 0x2003,
    0x2004, 0x2005, 0x2006, 0x2007, 0x2008, 0x2009, 0x200a, 0x2028, 0x2029, 0x202f, 0x205f, 0x3000])
/-- `str.strip()`. -/
def strip (s : Str) : Str := ((s.dropWhile isSpace).reverse.dropWhile isSpace).reverse

/-! ## Parse trees: `stoichiometry.py:167-178` -/

/-- Parse trees of one `(subscriptedgroup / subscriptedelement / element)` (`stoichiometry.py:170`).  Numbers are kept as text. -/
inductive Part
  /-- `element`, `stoichiometry.py:175` -/
  | elem (sym : Str)
  /-- `subscriptedelement = element number`, `stoichiometry.py:174` -/
  | elemN (sym num : Str)
  /-- `subscriptedgroup = "(" group ")" number?`, `stoichiometry.py:173` -/
  | grp (body : List Part) (num : Option Str)
  deriving Repr

/-- Parse tree of `compound = group dottedgroup? phase?` (`stoichiometry.py:169`); the dotted group (`:172`) is its optional number
and its group. -/
structure Tree where
  /-- the leading group -/
  group : List Part
  /-- `"." number? group` -/
  dotted : Option (Option Str × List Part)
  /-- `"[" string "]"` -/
  phase : Option Str
  deriving Repr

/-! ## The parser

`parsimonious` implements PEGs: ordered choice, greedy repetition, no backtracking into a succeeded repetition, whole input required.
A parser maps the remaining text to the parse tree and the text after it; `none` is failure.  `fuel` only bounds the recursion; the
entry point passes more than any text needs (shown by the round trip theorem C40). -/

/-- `element = ~r"[A-Z][a-z]*"`, `stoichiometry.py:175`. -/
def pElement : Str → Option (Str × Str)
  | [] => none
  | c :: s => if isUp c then some (c :: s.takeWhile isLow, s.dropWhile isLow) else none

/-- `number = ~r"[0-9]+"`, `stoichiometry.py:177`. -/
def pNumber (s : Str) : Option (Str × Str) :=
  if s.takeWhile isDig = [] then none else some (s.takeWhile isDig, s.dropWhile isDig)

/-- `number?`, `stoichiometry.py:172-173`. -/
def pOptNumber (s : Str) : Option Str × Str :=
  match pNumber s with
  | some (d, r) => (some d, r)
  | none => (none, s)

/-- `subscriptedelement = element number`, `stoichiometry.py:174`. -/
def pSubElement (s : Str) : Option (Part × Str) :=
  match pElement s with
  | none => none
  | some (e, r) => match pNumber r with
    | none => none
    | some (d, r') => some (.elemN e d, r')

mutual
/-- `subscriptedgroup / subscriptedelement / element`, `stoichiometry.py:170`. -/
def pPart : Nat → Str → Option (Part × Str)
  | 0, _ => none
  | n+1, s =>
    let sub := match s with
      | '(' :: r => match pParts n r with
        | (p :: ps, ')' :: r') => some (Part.grp (p :: ps) (pOptNumber r').1, (pOptNumber r').2)
        | _ => none
      | _ => none
    match sub with
    | some x => some x
    | none => match pSubElement s with
      | some x => some x
      | none => match pElement s with
        | some (e, r) => some (.elem e, r)
        | none => none
/-- Zero or more parts, greedily. -/
def pParts : Nat → Str → List Part × Str
  | 0, s => ([], s)
  | n+1, s => match pPart n s with
    | none => ([], s)
    | some (p, r) => (p :: (pParts n r).1, (pParts n r).2)
end

/-- `group = (...)+`, `stoichiometry.py:170`. -/
def pGroup (n : Nat) (s : Str) : Option (List Part × Str) :=
  match pParts n s with
  | ([], _) => none
  | (p :: ps, r) => some (p :: ps, r)

/-- `dottedgroup?` with `dottedgroup = "." number? group`, `stoichiometry.py:169,172`. -/
def pOptDotted (n : Nat) (s : Str) : Option (Option Str × List Part) × Str :=
  match s with
  | '.' :: r => match pGroup n (pOptNumber r).2 with
    | some (g, r') => (some ((pOptNumber r).1, g), r')
    | none => (none, s)
  | _ => (none, s)

/-- `phase?` with `phase = "[" string "]"`, `stoichiometry.py:169,171,176`. -/
def pOptPhase (s : Str) : Option Str × Str :=
  match s with
  | '[' :: r => if r.takeWhile isAlnum = [] then (none, s) else
    match r.dropWhile isAlnum with
    | ']' :: r' => (some (r.takeWhile isAlnum), r')
    | _ => (none, s)
  | _ => (none, s)

/-- `grammar.parse(string)`, `stoichiometry.py:167-178,184`: the whole text must be consumed. -/
def parseTree (s : Str) : Option Tree :=
  match pGroup (2 * s.length + 1) s with
  | none => none
  | some (g, r) =>
    let d := pOptDotted (2 * s.length + 1) r
    let p := pOptPhase d.2
    if p.2 = [] then some ⟨g, d.1, p.1⟩ else none

/-! ## Elements: `stoichiometry.py:405-538` -/

/-- `_element_dictionary_`, `stoichiometry.py:405-538`, symbols and molar masses (periods, groups and atomic numbers dropped: unused). -/
def elementTable : List (String × ℚ) := [
   ("H", 100794/100000), ("He", 4002602/1000000), ("Li", 6941/1000), ("Be", 9012182/1000000), ("B", 10811/1000),
   ("C", 120107/10000), ("N", 1400674/100000), ("O", 159994/10000), ("F", 189984032/10000000), ("Ne", 201797/10000),
   ("Na", 2298977/100000), ("Mg", 24305/1000), ("Al", 26981538/1000000), ("Si", 280855/10000), ("P", 30973762/1000000),
   ("S", 32066/1000), ("Cl", 354527/10000), ("Ar", 39948/1000), ("K", 390983/10000), ("Ca", 40078/1000),
   ("Sc", 4495591/100000), ("Ti", 47867/1000), ("V", 509415/10000), ("Cr", 519961/10000), ("Mn", 54938049/1000000),
   ("Fe", 55845/1000), ("Co", 589332/10000), ("Ni", 586934/10000), ("Cu", 63546/1000), ("Zn", 6539/100),
   ("Ga", 69723/1000), ("Ge", 7261/100), ("As", 749216/10000), ("Se", 7896/100), ("Br", 79904/1000),
   ("Kr", 838/10), ("Rb", 854678/10000), ("Sr", 8762/100), ("Y", 8890585/100000), ("Zr", 91224/1000),
   ("Nb", 9290638/100000), ("Mo", 9594/100), ("Tc", 98), ("Ru", 10107/100), ("Rh", 1029055/10000),
   ("Pd", 10642/100), ("Ag", 1078682/10000), ("Cd", 112411/1000), ("In", 114818/1000), ("Sn", 11871/100),
   ("Sb", 12176/100), ("Te", 1276/10), ("I", 12690447/100000), ("Xe", 13129/100), ("Cs", 13290545/100000),
   ("Ba", 137327/1000), ("La", 1389055/10000), ("Ce", 140116/1000), ("Pr", 14090765/100000), ("Nd", 14424/100),
   ("Pm", 145), ("Sm", 15036/100), ("Eu", 151964/1000), ("Gd", 15725/100), ("Tb", 15892534/100000),
   ("Dy", 1625/10), ("Ho", 16493032/100000), ("Er", 16726/100), ("Tm", 16893421/100000), ("Yb", 17304/100),
   ("Lu", 174967/1000), ("Hf", 17849/100), ("Ta", 1809479/10000), ("W", 18384/100), ("Re", 186207/1000),
   ("Os", 19023/100), ("Ir", 192217/1000), ("Pt", 195078/1000), ("Au", 19696655/100000), ("Hg", 20059/100),
   ("Tl", 2043833/10000), ("Pb", 2072/10), ("Bi", 20898038/100000), ("Po", 210), ("At", 210),
   ("Rn", 222), ("Fr", 223), ("Ra", 226), ("Ac", 227), ("Th", 2320381/10000),
   ("Pa", 23103588/100000), ("U", 2380289/10000), ("Np", 237), ("Pu", 244), ("Am", 243),
   ("Cm", 247), ("Bk", 247), ("Cf", 251), ("Es", 252), ("Fm", 257),
   ("Md", 258), ("No", 259), ("Lr", 262), ("Rf", 261), ("Db", 262),
   ("Sg", 266), ("Bh", 264), ("Hs", 269), ("Mt", 268), ("Ds", 269),
   ("Rg", 272)]

/-- `_element_dictionary_[symbol].molar_mass` (`stoichiometry.py:115,155`); `none` is a missing key. -/
def atomicMass (sym : Str) : Option ℚ := (elementTable.map (fun e => (e.1.toList, e.2))).lookup sym

/-! ## Group objects: `stoichiometry.py:25-119` and the visitor `:122-164` -/

/-- `Element` and `Group` objects (`stoichiometry.py:25-54,73-93`). -/
inductive Grp
  /-- an `Element`, `stoichiometry.py:25` -/
  | elem (sym : Str)
  /-- `Group(group, multiplier)`, `stoichiometry.py:73-88` (the `dotted` flag and a group's default multiplier 1 have no effect on counts) -/
  | group (gs : List Grp) (mult : ℕ)
  deriving Repr

/-- `int(node.text)`, `stoichiometry.py:157-158`. -/
def numVal (d : Str) : ℕ := d.foldl (fun n c => 10 * n + (c.toNat - '0'.toNat)) 0

/-- The multiplier of a (dotted) group: `if not number: number = 1`, so absent *and zero* numbers become 1
(`stoichiometry.py:138-142,144-148`). -/
def groupMult (num : Option Str) : ℕ :=
  match num with
  | none => 1
  | some d => if numVal d = 0 then 1 else numVal d

/-- `visit_element`: an unknown symbol is a `KeyError`, which `parsimonious` wraps in a `VisitationError`
(`stoichiometry.py:154-155`; modelled as `keyError`). -/
def visitElement (sym : Str) : Res Grp := if (atomicMass sym).isSome then .ok (.elem sym) else .error .keyError

mutual
/-- `visit_subscriptedgroup`, `visit_subscriptedelement`, `visit_element` (`stoichiometry.py:144-155`). -/
def visitPart : Part → Res Grp
  | .elem s => visitElement s
  | .elemN s d => match visitElement s with
    | .error e => .error e
    | .ok g => .ok (.group [g] (numVal d))
  | .grp b num => match visitParts b with
    | .error e => .error e
    | .ok gs => .ok (.group [.group gs 1] (groupMult num))
/-- The children of a `group` node, `visit_group` (`stoichiometry.py:131-132,160-164`). -/
def visitParts : List Part → Res (List Grp)
  | [] => .ok []
  | p :: ps => match visitPart p with
    | .error e => .error e
    | .ok g => match visitParts ps with
      | .error e => .error e
      | .ok gs => .ok (g :: gs)
end

/-- `Compound` (`stoichiometry.py:96-119`): the list of groups; the phase is kept and never used. -/
structure Compound where
  /-- `self.group` -/
  groups : List Grp
  /-- `self.phase` -/
  phase : Option Str
  deriving Repr

/-- `visit_compound` and `visit_dottedgroup` (`stoichiometry.py:127-129,138-142`). -/
def visitTree (t : Tree) : Res Compound :=
  match visitParts t.group with
  | .error e => .error e
  | .ok gs => match t.dotted with
    | none => .ok ⟨[.group gs 1], t.phase⟩
    | some (num, b) => match visitParts b with
      | .error e => .error e
      | .ok hs => .ok ⟨[.group gs 1, .group [.group hs 1] (groupMult num)], t.phase⟩

/-- `parse_compound` (`stoichiometry.py:181-185`; the cache is transparent, results are never mutated). -/
def parseCompound (s : Str) : Res Compound :=
  match parseTree s with
  | none => .error .parseError
  | some t => visitTree t

/-! ## Counting atoms -/

/-- A `defaultdict(float)` of element counts. -/
abbrev Counts := List (Str × ℚ)

/-- `counts[element] += x` (`stoichiometry.py:69`). -/
def bump (k : Str) (x : ℚ) : Counts → Counts
  | [] => [(k, 0 + x)]
  | (k', v) :: d => if k' = k then (k', v + x) :: d else (k', v) :: bump k x d

/-- The inner loop of `count_with_multiplier` (`stoichiometry.py:68-69`). -/
def bumpAll (m : ℕ) : Counts → Counts → Counts
  | [], acc => acc
  | (k, v) :: d, acc => bumpAll m d (bump k (v * m) acc)

mutual
/-- `Element.count` and `Group.count` (`stoichiometry.py:47-48,87-88`). -/
def Grp.count : Grp → Counts
  | .elem s => [(s, 1)]
  | .group gs m => countAll m gs []
/-- The outer loop of `count_with_multiplier` (`stoichiometry.py:57-70`). -/
def countAll (m : ℕ) : List Grp → Counts → Counts
  | [], acc => acc
  | g :: gs, acc => countAll m gs (bumpAll m g.count acc)
end

/-- `Compound.count` (`stoichiometry.py:111-112`). -/
def Compound.count (c : Compound) : Counts := countAll 1 c.groups []

/-- `d[k]` on a `defaultdict(float)`. -/
def Counts.get (d : Counts) (k : Str) : ℚ := (d.lookup k).getD 0

/-- `Compound.molar_mass` (`stoichiometry.py:114-116`).  Every key came from `_element_dictionary_`, so its lookup cannot fail. -/
def Compound.molarMass (c : Compound) : ℚ := (c.count.map (fun e => (atomicMass e.1).getD 0 * e.2)).sum

/-! ## The functions -/

/-- `molar_mass(compound)` (`stoichiometry.py:347-366`; the `None` argument is not modelled: it behaves like the empty text). -/
def molarMass (s : Str) : Res ℚ :=
  if s = [] then .ok 0 else (parseCompound (strip s)).map Compound.molarMass

/-- `amount(compound, mass)` (`stoichiometry.py:188-199`). -/
def amount (s : Str) (mass : ℚ) : Res ℚ :=
  match molarMass s with
  | .error e => .error e
  | .ok mm => if mm = 0 then .error .zeroDivisionError else .ok (mass / mm)

/-- `mass(compound, amount)` (`stoichiometry.py:229-240`). -/
def mass (s : Str) (amount : ℚ) : Res ℚ := (molarMass s).map (amount * ·)

/-- A dictionary from compound names to numbers (keys are distinct). -/
abbrev CDict := List (Str × ℚ)

/-- Dictionary comprehension `{c: f(c, d[c]) for c in d}`; the first error raised escapes (`stoichiometry.py:211-212,252-253`). -/
def mapDict (f : Str → ℚ → Res ℚ) : CDict → Res CDict
  | [] => .ok []
  | (k, v) :: d => match f k v with
    | .error e => .error e
    | .ok w => match mapDict f d with
      | .error e => .error e
      | .ok r => .ok ((k, w) :: r)

/-- `amounts(masses)` (`stoichiometry.py:202-212`). -/
def amounts (d : CDict) : Res CDict := mapDict amount d

/-- `masses(amounts)` (`stoichiometry.py:243-253`). -/
def masses (d : CDict) : Res CDict := mapDict mass d

/-- `{c: n[c]/n_total for c in n}` (`stoichiometry.py:224-226,265-267`): division by zero unless there is nothing to divide. -/
def fractionsOf (d : CDict) : Res CDict :=
  mapDict (fun _ v => if (d.map (·.2)).sum = 0 then .error .zeroDivisionError else .ok (v / (d.map (·.2)).sum)) d

/-- `amount_fractions(masses)` (`stoichiometry.py:215-226`). -/
def amountFractions (d : CDict) : Res CDict :=
  match amounts d with
  | .error e => .error e
  | .ok n => fractionsOf n

/-- `mass_fractions(amounts)` (`stoichiometry.py:256-267`). -/
def massFractions (d : CDict) : Res CDict :=
  match masses d with
  | .error e => .error e
  | .ok n => fractionsOf n

/-- `stoichiometry_coefficient(compound, element)` (`stoichiometry.py:369-382`). -/
def coefficient (s elt : Str) : Res ℚ := (parseCompound (strip s)).map (fun c => c.count.get elt)

/-- `stoichiometry_coefficients(compound, elements)` (`stoichiometry.py:385-398`). -/
def coefficients (s : Str) (elts : List Str) : Res (List ℚ) :=
  (parseCompound (strip s)).map (fun c => elts.map c.count.get)

/-- `element_mass_fraction(compound, element)` (`stoichiometry.py:295-312`). -/
def elementMassFraction (s elt : Str) : Res ℚ :=
  match coefficient s elt with
  | .error e => .error e
  | .ok k => if k = 0 then .ok 0 else
    match molarMass s with
    | .error e => .error e
    | .ok fm => match molarMass elt with
      | .error e => .error e
      | .ok em => if fm = 0 then .error .zeroDivisionError else .ok (k * em / fm)

/-- `element_mass_fractions(compound, elements)` (`stoichiometry.py:315-327`). -/
def elementMassFractions (s : Str) : List Str → Res (List ℚ)
  | [] => .ok []
  | e :: es => match elementMassFraction s e with
    | .error x => .error x
    | .ok f => match elementMassFractions s es with
      | .error x => .error x
      | .ok fs => .ok (f :: fs)

/-- `convert_compound(mass, source, target, element)` (`stoichiometry.py:270-292`). -/
def convertCompound (mass : ℚ) (source target elt : Str) : Res ℚ :=
  match elementMassFraction target elt with
  | .error e => .error e
  | .ok tf => if tf = 0 then .ok 0 else
    match elementMassFraction source elt with
    | .error e => .error e
    | .ok sf => .ok (mass * sf / tf)

/-- `elements(compounds)` (`stoichiometry.py:330-344`): the union of the keys of the counts.  A Python set has no order; the model lists it
without repetitions in order of first occurrence.  Note: texts are *not* stripped here. -/
def elements : List Str → Res (List Str)
  | [] => .ok []
  | s :: ss => match parseCompound s with
    | .error e => .error e
    | .ok c => match elements ss with
      | .error e => .error e
      | .ok l => .ok (c.count.map (·.1) ++ l.filter (fun k => !(c.count.map (·.1)).contains k))

end Auxi.Stoich
