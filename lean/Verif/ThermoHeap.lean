import Verif.ArrHeap
import Verif.Thermo

/-!
# Model of the packages of `thermo.py` with mutable arrays

`/repo/auxi/modelling/process/materials/thermo.py` again, this time with references to arrays (`Verif.ArrHeap`).  `Verif.Thermo` treats packages as values; `Verif.Props.ThermoHeap`
proves when this is right.  A function that only reads an object is that of `Verif.Thermo`, applied to what the object means at that moment (`pack`).  Simplifications as there.

The second part is about the dictionary `custom_properties`, which `copy.copy` does not copy.
-/
namespace Auxi.ThermoHeap
open Auxi Auxi.ArrHeap
open Auxi.Thermo (V Db Material Package vadd vsub vmul vdiv vgt vsum)
open Classical

/-- What a material has besides the arrays of its assays (`thermo.py:28-152`). -/
structure Info where
  /-- `self.compounds` -/
  compounds : List Str
  /-- `self.elements` -/
  elements : List Str
  /-- `self.custom_properties` -/
  customNames : List Str
  /-- `self.assay_custom_properties` -/
  custom : List (Str × List (Str × ℝ))

/-- The attributes of a package that are numbers (`thermo.py:400-411`). -/
structure TX where
  /-- `self._P` -/
  P : V
  /-- `self._T` -/
  T : V
  /-- `self._H` -/
  H : V
  /-- `self.isCoal` -/
  isCoal : Bool
  /-- `self.HHV` -/
  HHV : Option V

/-- The objects of a program that uses packages of `thermo.py`. -/
abbrev THeap := Heap Info TX V

/-- A package of `thermo.py` (`thermo.py:389-413`). -/
abbrev TPkg := PkgObj TX

/-- What a material means at the moment (`thermo.py:79-152`). -/
def matAt (h : THeap) (m : Nat) : Material := match h.mats[m]? with
  | none => ⟨m, [], [], [], [], []⟩
  | some o => ⟨m, o.info.compounds, o.assays.map fun e => (e.1, h.read e.2), o.info.elements, o.info.customNames, o.info.custom⟩

/-- What a package means at the moment (`thermo.py:389-413`). -/
def pack (h : THeap) (p : TPkg) : Package := ⟨matAt h p.mat, h.read p.arr, p.extra.P, p.extra.T, p.extra.H, p.extra.isCoal, p.extra.HHV⟩

/-- The numbers of a package. -/
def tx (P : Package) : TX := ⟨P.P, P.T, P.H, P.isCoal, P.HHV⟩

variable (db : Db)

/-- `MaterialPackage(material, array, P, T, isCoal, HHV)` (`thermo.py:389-413`): the package keeps the array; the object is registered by the caller. -/
noncomputable def newPkg (h : THeap) (m a : Nat) (P T : V) (isCoal : Bool) (HHV : Option V) : Res TPkg :=
  match Thermo.newPackage db (matAt h m) (h.read a) P T isCoal HHV with
  | .error e => .error e
  | .ok q => .ok ⟨m, tx q, a⟩

/-- `create_package()` without an assay (`thermo.py:337-338`). -/
noncomputable def createEmpty (h : THeap) (m : Nat) (P T : V) : Res TPkg × THeap := match h.alloc (matAt h m).emptyAssay with
  | (h, a) => (newPkg db h m a P T false none, h)

/-- `create_package` (`thermo.py:321-346`). -/
noncomputable def createPackage (h : THeap) (m : Nat) (assay : Option Str) (mass P T : V) (normalise : Bool) : Res TPkg × THeap := match assay with
  | none => createEmpty db h m P T
  | some name => match (matAt h m).scaled name mass normalise with
    | .error e => (.error e, h)
    | .ok l => match h.alloc l with
      | (h, a) => match (matAt h m).isCoal name with
        | .error e => (.error e, h)
        | .ok b => match (matAt h m).hhv name with
          | .error e => (.error e, h)
          | .ok v => (newPkg db h m a P T b v, h)

/-- The setter of `H` on an object that is not registered yet (`thermo.py:793-803`). -/
noncomputable def setHObj (h : THeap) (r : TPkg) (H : V) : Res TPkg := match (pack h r).setH db H with
  | (.error e, _) => .error e
  | (.ok _, q) => .ok { r with extra := tx q }

/-- The setter of `T` on an object that is not registered yet (`thermo.py:815-825`). -/
noncomputable def setTObj (h : THeap) (r : TPkg) (T : V) : Res TPkg := match (pack h r).setT db T with
  | (.error e, _) => .error e
  | (.ok _, q) => .ok { r with extra := tx q }

/-- The setter of `P` on an object that is not registered yet (`thermo.py:835-840`). -/
def setPObj (r : TPkg) (P : V) : TPkg := { r with extra := { r.extra with P := P } }

/-- `self + (compound, mass)` (`thermo.py:518-533`): the clone's array changes in place. -/
noncomputable def plusTuple (h : THeap) (p : TPkg) (c : Str) (x : V) : Res TPkg × THeap := match (matAt h p.mat).index c with
  | .error e => (.error e, h)
  | .ok i => match Thermo.thermoH db c p.extra.T x with
    | .error e => (.error e, h)
    | .ok dH => match h.cloned p with
      | (h, r) => match (h.read r.arr)[i]? with
        | none => (.error .indexError, h)
        | some y => (.ok { r with extra := { r.extra with H := vadd r.extra.H dH } }, h.write r.arr ((h.read r.arr).set i (vadd y x)))

/-- The loop of `+` over the compounds of another package's material (`thermo.py:506-515`). -/
noncomputable def plusLoop (p q : TPkg) : List Str → TPkg → THeap → Res TPkg × THeap
  | [], r, h => (.ok r, h)
  | c :: cs, r, h =>
    if c ∉ (matAt h p.mat).compounds then (.error .exception, h)
    else match (pack h q).compoundMass c with
      | .error e => (.error e, h)
      | .ok x => match plusTuple db h r c x with
        | (.error e, h) => (.error e, h)
        | (.ok r, h) => plusLoop p q cs r h

/-- `self * k` (`thermo.py:556-580`). -/
noncomputable def times (h : THeap) (p : TPkg) (isFloat : Bool) (k : V) : Res TPkg × THeap :=
  if isFloat then
    if vgt (some 0) k then (.error .exception, h)
    else match h.alloc ((h.read p.arr).map (fun x => vmul x k)) with
      | (h, a) => (newPkg db h p.mat a p.extra.P p.extra.T false none, h)
  else (.error .typeError, h)

/-- What the caller passes to `+` and `extract`: packages and materials by reference. -/
inductive HArg
  /-- another package (or the same) -/
  | pkg (q : Nat)
  /-- a tuple of a string and a number -/
  | tup (c : Str) (isFloat : Bool) (x : V)
  /-- a tuple of a string and two numbers -/
  | tup3 (c : Str) (isFloat : Bool) (x T : V)
  /-- a number -/
  | num (isFloat : Bool) (x : V)
  /-- a string -/
  | str (c : Str)
  /-- a material -/
  | mat (m : Nat)
  /-- anything else -/
  | other

/-- `self + (compound, mass, temperature)` (`thermo.py:535-551`). -/
noncomputable def plusTuple3 (h : THeap) (p : TPkg) (c : Str) (x T : V) : Res TPkg × THeap := match (matAt h p.mat).index c with
  | .error e => (.error e, h)
  | .ok i => match Thermo.thermoH db c T x with
    | .error e => (.error e, h)
    | .ok dH => match times db h p true (some 1) with
      | (.error e, h) => (.error e, h)
      | (.ok r, h) => match (h.read r.arr)[i]? with
        | none => (.error .indexError, h)
        | some y =>
          let h := h.write r.arr ((h.read r.arr).set i (vadd y x))
          match setHObj db h r (vadd p.extra.H dH) with
          | .error e => (.error e, h)
          | .ok r => (.ok (setPObj r p.extra.P), h)

/-- `self + other` for packages (`thermo.py:493-516`). -/
noncomputable def plusPkg (h : THeap) (p q : TPkg) : Res TPkg × THeap :=
  if p.mat = q.mat then match Thermo.arrAdd (h.read p.arr) (h.read q.arr) with
    | .error e => (.error e, h)
    | .ok l => match h.alloc l with
      | (h, a) => match newPkg db h p.mat a (some 1) (some 25) false none with
        | .error e => (.error e, h)
        | .ok r => match setHObj db h r (vadd p.extra.H q.extra.H) with
          | .error e => (.error e, h)
          | .ok r => (.ok (setPObj r p.extra.P), h)
  else match h.cloned p with
    | (h, r) => match plusLoop db p q (matAt h q.mat).compounds r h with
      | (.error e, h) => (.error e, h)
      | (.ok r, h) => (setHObj db h r (vadd p.extra.H q.extra.H), h)

/-- `self + other` (`thermo.py:473-554`). -/
noncomputable def plus (h : THeap) (p : TPkg) (a : HArg) : Res TPkg × THeap := match a with
  | .pkg q => match h.pkgs[q]? with
    | none => (.error .nameError, h)
    | some q => plusPkg db h p q
  | .mat m => if m < h.mats.length then (.error .typeError, h) else (.error .nameError, h)
  | .tup c b x => if b then plusTuple db h p c x else (.error .typeError, h)
  | .tup3 c b x T => if b then plusTuple3 db h p c x T else (.error .typeError, h)
  | _ => (.error .typeError, h)

/-- The setter of `H` of the package at position `i` (`thermo.py:793-803`). -/
noncomputable def setH (h : THeap) (i : Nat) (p : TPkg) (H : V) : Res Unit × THeap := match (pack h p).setH db H with
  | (r, q) => (r, h.rebind i { p with extra := tx q })

/-- The setter of `T` of the package at position `i` (`thermo.py:815-825`). -/
noncomputable def setT (h : THeap) (i : Nat) (p : TPkg) (T : V) : Res Unit × THeap := match (pack h p).setT db T with
  | (r, q) => (r, h.rebind i { p with extra := tx q })

/-- `self.T = self.T` at the end of an extraction (`thermo.py:1032,1048`). -/
noncomputable def settle (h : THeap) (i : Nat) (p : TPkg) (r : TPkg) : Res TPkg × THeap := match setT db h i p p.extra.T with
  | (.error e, h) => (.error e, h)
  | (.ok _, h) => (.ok r, h)

/-- `_extract_mass` (`thermo.py:1021-1034`): the attribute of the receiver gets a new array. -/
noncomputable def extractMass (h : THeap) (i : Nat) (p : TPkg) (x : V) : Res TPkg × THeap :=
  if vgt x (vsum (h.read p.arr)) then (.error .exception, h)
  else
    let f := vdiv x (vsum (h.read p.arr))
    match h.alloc ((h.read p.arr).map (fun y => vmul y f)) with
    | (h, a) => match newPkg db h p.mat a p.extra.P p.extra.T false none with
      | .error e => (.error e, h)
      | .ok r => match h.alloc ((h.read p.arr).map (fun y => vmul y (vsub (some 1) f))) with
        | (h, s) =>
          let p := { p with arr := s }
          settle db (h.rebind i p) i p r

/-- `_extract_compound` (`thermo.py:1036-1050`): the arrays of the result and of the receiver change in place. -/
noncomputable def extractCompound (h : THeap) (i : Nat) (p : TPkg) (c : Str) : Res TPkg × THeap := match createEmpty db h p.mat (some 1) (some 25) with
  | (.error e, h) => (.error e, h)
  | (.ok r, h) =>
    if c ∉ (matAt h p.mat).compounds then (.ok r, h)
    else match (matAt h p.mat).index c with
      | .error e => (.error e, h)
      | .ok j => match (h.read p.arr)[j]? with
        | none => (.error .indexError, h)
        | some y =>
          let h := h.write r.arr ((h.read r.arr).set j y)
          match setTObj db h r p.extra.T with
          | .error e => (.error e, h)
          | .ok r =>
            let r := setPObj r p.extra.P
            settle db (h.write p.arr ((h.read p.arr).set j (some 0))) i p r

/-- `_extract_compound_mass` (`thermo.py:1052-1066`): the array of the receiver changes in place. -/
noncomputable def extractCompoundMass (h : THeap) (i : Nat) (p : TPkg) (c : Str) (x : V) : Res TPkg × THeap :=
  if c ∉ (matAt h p.mat).compounds then createEmpty db h p.mat (some 1) (some 25)
  else match (matAt h p.mat).index c with
    | .error e => (.error e, h)
    | .ok j => match (h.read p.arr)[j]? with
      | none => (.error .indexError, h)
      | some y =>
        if vgt x y then (.error .exception, h)
        else
          let h := h.write p.arr ((h.read p.arr).set j (vsub y x))
          match setT db h i p p.extra.T with
          | (.error e, h) => (.error e, h)
          | (.ok _, h) => match h.pkgs[i]? with
            | none => (.error .nameError, h)
            | some p => match createEmpty db h p.mat p.extra.P p.extra.T with
              | (.error e, h) => (.error e, h)
              | (.ok r, h) => plusTuple db h r c x

/-- The loop of `_extract_material` (`thermo.py:1070-1073`). -/
noncomputable def extractLoop (i : Nat) : List Str → TPkg → THeap → Res TPkg × THeap
  | [], r, h => (.ok r, h)
  | c :: cs, r, h => match h.pkgs[i]? with
    | none => (.error .nameError, h)
    | some p => match (pack h p).compoundMass c with
      | .error e => (.error e, h)
      | .ok x => match plusTuple db h r c x with
        | (.error e, h) => (.error e, h)
        | (.ok r, h) => match extractCompound db h i p c with
          | (.error e, h) => (.error e, h)
          | (.ok _, h) => extractLoop i cs r h

/-- `_extract_material` (`thermo.py:1068-1076`). -/
noncomputable def extractMaterial (h : THeap) (i : Nat) (m : Nat) : Res TPkg × THeap := match createEmpty db h m (some 1) (some 25) with
  | (.error e, h) => (.error e, h)
  | (.ok r, h) => match extractLoop db i (matAt h m).compounds r h with
    | (.error e, h) => (.error e, h)
    | (.ok r, h) => match h.pkgs[i]? with
      | none => (.error .nameError, h)
      | some p => (setTObj db h r p.extra.T, h)

/-- `extract` (`thermo.py:975-1019`) from the package at position `i`. -/
noncomputable def extract (h : THeap) (i : Nat) (p : TPkg) (a : HArg) : Res TPkg × THeap := match a with
  | .num b x => if b then extractMass db h i p x else (.error .typeError, h)
  | .tup c b x => if b then extractCompoundMass db h i p c x else (.error .typeError, h)
  | .str c => extractCompound db h i p c
  | .mat m => if m < h.mats.length then extractMaterial db h i m else (.error .nameError, h)
  | .pkg q => match h.pkgs[q]? with
    | none => (.error .nameError, h)
    | some _ => (.error .typeError, h)
  | _ => (.error .typeError, h)

/-- `clear` (`thermo.py:855-864`): the attribute gets a new array. -/
noncomputable def clear (h : THeap) (i : Nat) (p : TPkg) : THeap := match h.alloc ((h.read p.arr).map (fun x => vmul x (some 0))) with
  | (h, a) => h.rebind i ⟨p.mat, { p.extra with P := some 1, T := some 25, H := some 0 }, a⟩

/-- Statements of a program that uses the module.  Names of packages, materials and arrays are positions. -/
inductive Cmd
  /-- `material.create_package(assay, mass, P, T, normalise)` -/
  | create (m : Nat) (assay : Option Str) (mass P T : V) (normalise : Bool)
  /-- `p.clone()` -/
  | clone (p : Nat)
  /-- `p + a` -/
  | plus (p : Nat) (a : HArg)
  /-- `p * k` -/
  | times (p : Nat) (isFloat : Bool) (k : V)
  /-- `p.extract(a)` -/
  | extract (p : Nat) (a : HArg)
  /-- `p.clear()` -/
  | clear (p : Nat)
  /-- `p.H = x` -/
  | setH (p : Nat) (x : V)
  /-- `p.T = x` -/
  | setT (p : Nat) (x : V)
  /-- `p.P = x` -/
  | setP (p : Nat) (x : V)
  /-- `numpy.array([x, y, ...])`: the caller makes an array -/
  | array (l : List V)
  /-- `a[i] = x`: the caller changes an array -/
  | setItem (a i : Nat) (x : V)
  /-- `MaterialPackage(material, a, P, T)` -/
  | construct (m a : Nat) (P T : V)
  /-- `material.add_assay(name, a)` -/
  | addAssay (m : Nat) (name : Str) (a : Nat)

/-- The package with a name (`thermo.py`); `NameError` stands for a name that has no value. -/
def withPkg (h : THeap) (i : Nat) (f : TPkg → Out × THeap) : Out × THeap := match h.pkgs[i]? with
  | none => (.error .nameError, h)
  | some p => f p

/-- A statement without a value. -/
def done : Res Unit × THeap → Out × THeap
  | (.error e, h) => (.error e, h)
  | (.ok _, h) => (.ok none, h)

/-- One statement (`thermo.py`). -/
noncomputable def step (h : THeap) (c : Cmd) : Out × THeap := match c with
  | .create m a mass P T n => if m < h.mats.length then finish (createPackage db h m a mass P T n) else (.error .nameError, h)
  | .clone i => withPkg h i fun p => match h.cloned p with
    | (h, r) => finish (.ok r, h)
  | .plus i a => withPkg h i fun p => finish (plus db h p a)
  | .times i b k => withPkg h i fun p => finish (times db h p b k)
  | .extract i a => withPkg h i fun p => finish (extract db h i p a)
  | .clear i => withPkg h i fun p => (.ok none, clear h i p)
  | .setH i x => withPkg h i fun p => done (setH db h i p x)
  | .setT i x => withPkg h i fun p => done (setT db h i p x)
  | .setP i x => withPkg h i fun p => (.ok none, h.rebind i (setPObj p x))
  | .array l => (.ok none, (h.alloc l).1)
  | .setItem a i x => h.setItem a i x
  | .construct m a P T => if m < h.mats.length then finish (newPkg db h m a P T false none, h) else (.error .nameError, h)
  | .addAssay m name a => h.addAssay (fun i => i.compounds.length) m name a

/-- A program (`thermo.py`): the caller catches every exception; the outcome of each statement and the objects afterwards. -/
noncomputable def run (h : THeap) : List Cmd → List Out × THeap
  | [] => ([], h)
  | c :: cs => match step db h c with
    | (o, h) => match run h cs with
      | (os, h) => (o :: os, h)

/-! ## `custom_properties` -/

/-- A program's objects together with the dictionaries of custom properties (`thermo.py:413`): each package holds a reference to one. -/
structure CHeap where
  /-- the objects -/
  heap : THeap
  /-- `package.custom_properties`, by package -/
  props : List Nat
  /-- the dictionaries -/
  dicts : List (List (Str × V))

/-- The package whose dictionary the result of a statement gets: `copy.copy` copies the reference (`thermo.py:851`), and `+` clones the receiver in two of its cases (`thermo.py:505,528`);
everything else, also `extract`, starts from the constructor, which makes a new dictionary (`thermo.py:413`). -/
def dictFrom (h : THeap) : Cmd → Option Nat
  | .clone p => some p
  | .plus p (.tup _ _ _) => some p
  | .plus p (.pkg q) => match h.pkgs[p]?, h.pkgs[q]? with
    | some a, some b => if a.mat = b.mat then none else some p
    | _, _ => none
  | _ => none

/-- Statements on packages with custom properties. -/
inductive CCmd
  /-- as before -/
  | op (c : Cmd)
  /-- `p.custom_properties[k] = x` -/
  | setProp (p : Nat) (k : Str) (x : V)

/-- `d[k] = x` (`thermo.py:413`). -/
def dictSet (d : List (Str × V)) (k : Str) (x : V) : List (Str × V) := (k, x) :: d.filter (fun e => e.1 ≠ k)

/-- The objects after a statement whose outcome is `o` (`thermo.py:413,851`). -/
def CHeap.after (H : CHeap) (c : Cmd) (o : Out) (h : THeap) : CHeap := match o with
  | .ok (some _) => match (dictFrom H.heap c).bind (H.props[·]?) with
    | some d => ⟨h, H.props ++ [d], H.dicts⟩
    | none => ⟨h, H.props ++ [H.dicts.length], H.dicts ++ [[]]⟩
  | _ => ⟨h, H.props, H.dicts⟩

/-- One statement (`thermo.py:413,846-853`). -/
noncomputable def cstep (H : CHeap) : CCmd → Out × CHeap
  | .op c => match step db H.heap c with
    | (o, h) => (o, H.after c o h)
  | .setProp p k x => match H.props[p]? with
    | none => (.error .nameError, H)
    | some d => (.ok none, { H with dicts := H.dicts.set d (dictSet (H.dicts[d]?.getD []) k x) })

/-- `p.custom_properties.get(k)` (`thermo.py:413`). -/
def CHeap.prop (H : CHeap) (p : Nat) (k : Str) : Option V := match H.props[p]? with
  | none => none
  | some d => (H.dicts[d]?.getD []).lookup k

end Auxi.ThermoHeap
