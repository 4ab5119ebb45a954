import Verif.ThermoHeap
import Verif.ThermoStream

/-!
# Model of the streams of `thermo.py` with mutable arrays

`/repo/auxi/modelling/process/materials/thermo.py:1079-1845` again, this time with references to arrays (`Verif.ArrHeap`).  `Verif.ThermoStream` treats streams as values;
`Verif.Props.StreamHeap` proves when this is right.  A function that only reads an object is that of `Verif.ThermoStream`, applied to what the object means at that moment (`pack`).
Simplifications as there.  Unlike that of a package, the array of a stream changes in place also just before the heating value is recalculated, which may raise.

The last part is about the dictionary `custom_properties`, which `copy.copy` does not copy.
-/
namespace Auxi.StreamHeap
open Auxi Auxi.ArrHeap
open Auxi.Thermo (V Db Material Stream vadd vsub vmul vdiv vgt vsum)
open Auxi.ThermoHeap (Info)
open Classical

/-- The attributes of a stream that are numbers (`thermo.py:1103-1112,1556-1567`). -/
structure SX where
  /-- `self._P` -/
  P : V
  /-- `self._T` -/
  T : V
  /-- `self._Hfr` -/
  Hfr : V
  /-- `self.isCoal` -/
  isCoal : Bool
  /-- `self._HHV` -/
  HHV : Option V
  /-- `self._DH298`; `none` while the attribute does not exist -/
  DH298 : Option V

/-- The objects of a program that uses streams of `thermo.py`. -/
abbrev SHeap := Heap Info SX V

/-- A stream of `thermo.py` (`thermo.py:1092-1114`). -/
abbrev SPkg := PkgObj SX

/-- What a material means at the moment (`thermo.py:79-152`). -/
def matAt (h : SHeap) (m : Nat) : Material := match h.mats[m]? with
  | none => ⟨m, [], [], [], [], []⟩
  | some o => ⟨m, o.info.compounds, o.assays.map fun e => (e.1, h.read e.2), o.info.elements, o.info.customNames, o.info.custom⟩

/-- What a stream means at the moment (`thermo.py:1092-1114`). -/
def pack (h : SHeap) (p : SPkg) : Stream := ⟨matAt h p.mat, h.read p.arr, p.extra.P, p.extra.T, p.extra.Hfr, p.extra.isCoal, p.extra.HHV, p.extra.DH298⟩

/-- The numbers of a stream. -/
def tx (P : Stream) : SX := ⟨P.P, P.T, P.Hfr, P.isCoal, P.HHV, P.DH298⟩

variable (db : Db)

/-- `MaterialStream(material, array, P, T, isCoal, HHV)` (`thermo.py:1092-1114`): the stream keeps the array; the object is registered by the caller. -/
noncomputable def newPkg (h : SHeap) (m a : Nat) (P T : V) (isCoal : Bool) (HHV : Option V) : Res SPkg :=
  match Thermo.newStream db (matAt h m) (h.read a) P T isCoal HHV with
  | .error e => .error e
  | .ok q => .ok ⟨m, tx q, a⟩

/-- `create_stream()` without an assay (`thermo.py:363-364`). -/
noncomputable def createEmpty (h : SHeap) (m : Nat) (P T : V) : Res SPkg × SHeap := match h.alloc (matAt h m).emptyAssay with
  | (h, a) => (newPkg db h m a P T false none, h)

/-- `create_stream` (`thermo.py:348-373`). -/
noncomputable def createStream (h : SHeap) (m : Nat) (assay : Option Str) (mfr P T : V) (normalise : Bool) : Res SPkg × SHeap := match assay with
  | none => createEmpty db h m P T
  | some name => match (matAt h m).scaled name mfr normalise with
    | .error e => (.error e, h)
    | .ok l => match h.alloc l with
      | (h, a) => match (matAt h m).isCoal name with
        | .error e => (.error e, h)
        | .ok b => match (matAt h m).hhv name with
          | .error e => (.error e, h)
          | .ok v => (newPkg db h m a P T b v, h)

/-- A setter or `_update_HHV` on an object that is not registered yet (`thermo.py:1512-1582,1803-1816`): `f` is the function of `Verif.ThermoStream`. -/
noncomputable def onObj (h : SHeap) (r : SPkg) (f : Stream → Res Unit × Stream) : Res SPkg := match f (pack h r) with
  | (.error e, _) => .error e
  | (.ok _, q) => .ok { r with extra := tx q }

/-- A setter or `_update_HHV` on the stream at position `i` (`thermo.py:1512-1582,1803-1816`): what it has assigned when it raises stays. -/
noncomputable def onStream (h : SHeap) (i : Nat) (p : SPkg) (f : Stream → Res Unit × Stream) : Res Unit × SHeap := match f (pack h p) with
  | (r, q) => (r, h.rebind i { p with extra := tx q })

/-- The setter of `P` on an object that is not registered yet (`thermo.py:1577-1582`). -/
def setPObj (r : SPkg) (P : V) : SPkg := { r with extra := { r.extra with P := P } }

/-- `self + (compound, mass flow rate)` (`thermo.py:1233-1248`): the clone's array changes in place. -/
noncomputable def plusTuple (h : SHeap) (p : SPkg) (c : Str) (x : V) : Res SPkg × SHeap := match (matAt h p.mat).index c with
  | .error e => (.error e, h)
  | .ok i => match Thermo.thermoH db c p.extra.T x with
    | .error e => (.error e, h)
    | .ok dH => match h.cloned p with
      | (h, r) => match (h.read r.arr)[i]? with
        | none => (.error .indexError, h)
        | some y =>
          let h := h.write r.arr ((h.read r.arr).set i (vadd y x))
          match onObj h r (fun s => s.updateHHV db c x) with
          | .error e => (.error e, h)
          | .ok r => (.ok { r with extra := { r.extra with Hfr := vadd r.extra.Hfr dH, P := p.extra.P } }, h)

/-- The loop of `+` over the compounds of another stream's material (`thermo.py:1221-1230`). -/
noncomputable def plusLoop (p q : SPkg) : List Str → SPkg → SHeap → Res SPkg × SHeap
  | [], r, h => (.ok r, h)
  | c :: cs, r, h =>
    if c ∉ (matAt h p.mat).compounds then (.error .exception, h)
    else match (pack h q).compoundMfr c with
      | .error e => (.error e, h)
      | .ok x => match plusTuple db h r c x with
        | (.error e, h) => (.error e, h)
        | (.ok r, h) => plusLoop p q cs r h

/-- `self * k` (`thermo.py:1270-1295`). -/
noncomputable def times (h : SHeap) (p : SPkg) (isFloat : Bool) (k : V) : Res SPkg × SHeap :=
  if isFloat then
    if vgt (some 0) k then (.error .exception, h)
    else match h.alloc ((h.read p.arr).map (fun x => vmul x k)) with
      | (h, a) => (newPkg db h p.mat a p.extra.P p.extra.T p.extra.isCoal p.extra.HHV, h)
  else (.error .typeError, h)

/-- What the caller passes to `+` and `extract`: streams and materials by reference. -/
inductive HArg
  /-- another stream (or the same) -/
  | pkg (q : Nat)
  /-- a tuple of a string and a number -/
  | tup (c : Str) (isFloat : Bool) (x : V)
  /-- a tuple of a string and two numbers -/
  | tup3 (c : Str) (isFloat : Bool) (x T : V)
  /-- a number -/
  | num (isFloat : Bool) (x : V)
  /-- a string -/
  | str (c : Str)
  /-- a material -/
  | mat (m : Nat)
  /-- anything else -/
  | other

/-- `self + (compound, mass flow rate, temperature)` (`thermo.py:1250-1264`). -/
noncomputable def plusTuple3 (h : SHeap) (p : SPkg) (c : Str) (x T : V) : Res SPkg × SHeap := match (matAt h p.mat).index c with
  | .error e => (.error e, h)
  | .ok i => match Thermo.thermoH db c T x with
    | .error e => (.error e, h)
    | .ok dH => match times db h p true (some 1) with
      | (.error e, h) => (.error e, h)
      | (.ok r, h) => match (h.read r.arr)[i]? with
        | none => (.error .indexError, h)
        | some y =>
          let h := h.write r.arr ((h.read r.arr).set i (vadd y x))
          match onObj h r (fun s => s.setHfr db (vadd p.extra.Hfr dH)) with
          | .error e => (.error e, h)
          | .ok r => (.ok (setPObj r p.extra.P), h)

/-- `self + other` for streams (`thermo.py:1198-1231`). -/
noncomputable def plusPkg (h : SHeap) (p q : SPkg) : Res SPkg × SHeap :=
  if p.mat = q.mat then match Thermo.arrAdd (h.read p.arr) (h.read q.arr) with
    | .error e => (.error e, h)
    | .ok l => match h.alloc l with
      | (h', a) => match newPkg db h' p.mat a (some 1) (some 25) (p.extra.isCoal || q.extra.isCoal) (Thermo.sumHHV (pack h p) (pack h q)) with
        | .error e => (.error e, h')
        | .ok r => match onObj h' r (fun s => s.setHfr db (vadd p.extra.Hfr q.extra.Hfr)) with
          | .error e => (.error e, h')
          | .ok r => (.ok (setPObj r p.extra.P), h')
  else match h.cloned p with
    | (h, r) => match plusLoop db p q (matAt h q.mat).compounds r h with
      | (.error e, h) => (.error e, h)
      | (.ok r, h) => (onObj h r (fun s => s.setHfr db (vadd p.extra.Hfr q.extra.Hfr)), h)

/-- `self + other` (`thermo.py:1176-1268`). -/
noncomputable def plus (h : SHeap) (p : SPkg) (a : HArg) : Res SPkg × SHeap := match a with
  | .pkg q => match h.pkgs[q]? with
    | none => (.error .nameError, h)
    | some q => plusPkg db h p q
  | .mat m => if m < h.mats.length then (.error .typeError, h) else (.error .nameError, h)
  | .tup c b x => if b then plusTuple db h p c x else (.error .typeError, h)
  | .tup3 c b x T => if b then plusTuple3 db h p c x T else (.error .typeError, h)
  | _ => (.error .typeError, h)

/-- `self.T = self.T` at the end of an extraction (`thermo.py:1780,1799`). -/
noncomputable def settle (h : SHeap) (i : Nat) (p : SPkg) (r : SPkg) : Res SPkg × SHeap := match onStream h i p (fun s => s.setT db p.extra.T) with
  | (.error e, h) => (.error e, h)
  | (.ok _, h) => (.ok r, h)

/-- `_extract_mfr` (`thermo.py:1768-1782`): the attribute of the receiver gets a new array. -/
noncomputable def extractMfr (h : SHeap) (i : Nat) (p : SPkg) (x : V) : Res SPkg × SHeap :=
  if vgt x (vsum (h.read p.arr)) then (.error .exception, h)
  else
    let f := vdiv x (vsum (h.read p.arr))
    match h.alloc ((h.read p.arr).map (fun y => vmul y f)) with
    | (h, a) => match newPkg db h p.mat a p.extra.P p.extra.T false none with
      | .error e => (.error e, h)
      | .ok r => match h.alloc ((h.read p.arr).map (fun y => vmul y (vsub (some 1) f))) with
        | (h, s) =>
          let p := { p with arr := s }
          settle db (h.rebind i p) i p r

/-- `_extract_compound` (`thermo.py:1784-1801`): the arrays of the result and of the receiver change in place, the latter before `_update_HHV`. -/
noncomputable def extractCompound (h : SHeap) (i : Nat) (p : SPkg) (c : Str) : Res SPkg × SHeap := match createEmpty db h p.mat (some 1) (some 25) with
  | (.error e, h) => (.error e, h)
  | (.ok r, h) =>
    if c ∉ (matAt h p.mat).compounds then (.ok r, h)
    else match (matAt h p.mat).index c with
      | .error e => (.error e, h)
      | .ok j => match (h.read p.arr)[j]? with
        | none => (.error .indexError, h)
        | some y =>
          let h := h.write r.arr ((h.read r.arr).set j y)
          match onObj h r (fun s => s.setT db p.extra.T) with
          | .error e => (.error e, h)
          | .ok r =>
            let r := setPObj r p.extra.P
            match onStream (h.write p.arr ((h.read p.arr).set j (some 0))) i p (fun s => s.updateHHV db c (vsub (some 0) y)) with
            | (.error e, h) => (.error e, h)
            | (.ok _, h) => match h.pkgs[i]? with
              | none => (.error .nameError, h)
              | some p => settle db h i p r

/-- `_extract_compound_mfr` (`thermo.py:1818-1835`): the array of the receiver changes in place before `_update_HHV`. -/
noncomputable def extractCompoundMfr (h : SHeap) (i : Nat) (p : SPkg) (c : Str) (x : V) : Res SPkg × SHeap :=
  if c ∉ (matAt h p.mat).compounds then createEmpty db h p.mat (some 1) (some 25)
  else match (matAt h p.mat).index c with
    | .error e => (.error e, h)
    | .ok j => match (h.read p.arr)[j]? with
      | none => (.error .indexError, h)
      | some y =>
        if vgt x y then (.error .exception, h)
        else
          let h := h.write p.arr ((h.read p.arr).set j (vsub y x))
          match onStream h i p (fun s => s.updateHHV db c (vsub (some 0) x)) with
          | (.error e, h) => (.error e, h)
          | (.ok _, h) => match h.pkgs[i]? with
            | none => (.error .nameError, h)
            | some p => match onStream h i p (fun s => s.setT db p.extra.T) with
              | (.error e, h) => (.error e, h)
              | (.ok _, h) => match h.pkgs[i]? with
                | none => (.error .nameError, h)
                | some p => match createEmpty db h p.mat p.extra.P p.extra.T with
                  | (.error e, h) => (.error e, h)
                  | (.ok r, h) => plusTuple db h r c x

/-- The loop of `_extract_material` (`thermo.py:1839-1842`). -/
noncomputable def extractLoop (i : Nat) : List Str → SPkg → SHeap → Res SPkg × SHeap
  | [], r, h => (.ok r, h)
  | c :: cs, r, h => match h.pkgs[i]? with
    | none => (.error .nameError, h)
    | some p => match (pack h p).compoundMfr c with
      | .error e => (.error e, h)
      | .ok x => match plusTuple db h r c x with
        | (.error e, h) => (.error e, h)
        | (.ok r, h) => match extractCompound db h i p c with
          | (.error e, h) => (.error e, h)
          | (.ok _, h) => extractLoop i cs r h

/-- `_extract_material` (`thermo.py:1837-1845`). -/
noncomputable def extractMaterial (h : SHeap) (i : Nat) (m : Nat) : Res SPkg × SHeap := match createEmpty db h m (some 1) (some 25) with
  | (.error e, h) => (.error e, h)
  | (.ok r, h) => match extractLoop db i (matAt h m).compounds r h with
    | (.error e, h) => (.error e, h)
    | (.ok r, h) => match h.pkgs[i]? with
      | none => (.error .nameError, h)
      | some p => (onObj h r (fun s => s.setT db p.extra.T), h)

/-- `extract` (`thermo.py:1722-1766`) from the stream at position `i`. -/
noncomputable def extract (h : SHeap) (i : Nat) (p : SPkg) (a : HArg) : Res SPkg × SHeap := match a with
  | .num b x => if b then extractMfr db h i p x else (.error .typeError, h)
  | .tup c b x => if b then extractCompoundMfr db h i p c x else (.error .typeError, h)
  | .str c => extractCompound db h i p c
  | .mat m => if m < h.mats.length then extractMaterial db h i m else (.error .nameError, h)
  | .pkg q => match h.pkgs[q]? with
    | none => (.error .nameError, h)
    | some _ => (.error .typeError, h)
  | _ => (.error .typeError, h)

/-- `clear` (`thermo.py:1597-1606`): the attribute gets a new array; `_Hfr` stays. -/
noncomputable def clear (h : SHeap) (i : Nat) (p : SPkg) : SHeap := match h.alloc ((h.read p.arr).map (fun x => vmul x (some 0))) with
  | (h, a) => h.rebind i ⟨p.mat, { p.extra with P := some 1, T := some 25 }, a⟩

/-- Statements of a program that uses the module.  Names of streams, materials and arrays are positions. -/
inductive Cmd
  /-- `material.create_stream(assay, mfr, P, T, normalise)` -/
  | create (m : Nat) (assay : Option Str) (mfr P T : V) (normalise : Bool)
  /-- `p.clone()` -/
  | clone (p : Nat)
  /-- `p + a` -/
  | plus (p : Nat) (a : HArg)
  /-- `p * k` -/
  | times (p : Nat) (isFloat : Bool) (k : V)
  /-- `p.extract(a)` -/
  | extract (p : Nat) (a : HArg)
  /-- `p.clear()` -/
  | clear (p : Nat)
  /-- `p.Hfr = x` -/
  | setHfr (p : Nat) (x : V)
  /-- `p.T = x` -/
  | setT (p : Nat) (x : V)
  /-- `p.HHV = x` -/
  | setHHV (p : Nat) (x : Option V)
  /-- `p.P = x` -/
  | setP (p : Nat) (x : V)
  /-- `numpy.array([x, y, ...])`: the caller makes an array -/
  | array (l : List V)
  /-- `a[i] = x`: the caller changes an array -/
  | setItem (a i : Nat) (x : V)
  /-- `MaterialStream(material, a, P, T, isCoal, HHV)` -/
  | construct (m a : Nat) (P T : V) (isCoal : Bool) (HHV : Option V)
  /-- `material.add_assay(name, a)` -/
  | addAssay (m : Nat) (name : Str) (a : Nat)

/-- The stream with a name (`thermo.py`); `NameError` stands for a name that has no value. -/
def withPkg (h : SHeap) (i : Nat) (f : SPkg → Out × SHeap) : Out × SHeap := match h.pkgs[i]? with
  | none => (.error .nameError, h)
  | some p => f p

/-- A statement without a value. -/
def done : Res Unit × SHeap → Out × SHeap
  | (.error e, h) => (.error e, h)
  | (.ok _, h) => (.ok none, h)

/-- One statement (`thermo.py:1079-1845`). -/
noncomputable def step (h : SHeap) (c : Cmd) : Out × SHeap := match c with
  | .create m a mfr P T n => if m < h.mats.length then finish (createStream db h m a mfr P T n) else (.error .nameError, h)
  | .clone i => withPkg h i fun p => match h.cloned p with
    | (h, r) => finish (.ok r, h)
  | .plus i a => withPkg h i fun p => finish (plus db h p a)
  | .times i b k => withPkg h i fun p => finish (times db h p b k)
  | .extract i a => withPkg h i fun p => finish (extract db h i p a)
  | .clear i => withPkg h i fun p => (.ok none, clear h i p)
  | .setHfr i x => withPkg h i fun p => done (onStream h i p (fun s => s.setHfr db x))
  | .setT i x => withPkg h i fun p => done (onStream h i p (fun s => s.setT db x))
  | .setHHV i x => withPkg h i fun p => done (onStream h i p (fun s => s.setHHV db x))
  | .setP i x => withPkg h i fun p => (.ok none, h.rebind i (setPObj p x))
  | .array l => (.ok none, (h.alloc l).1)
  | .setItem a i x => h.setItem a i x
  | .construct m a P T c v => if m < h.mats.length then finish (newPkg db h m a P T c v, h) else (.error .nameError, h)
  | .addAssay m name a => h.addAssay (fun i => i.compounds.length) m name a

/-- A program (`thermo.py:1079-1845`): the caller catches every exception; the outcome of each statement and the objects afterwards. -/
noncomputable def run (h : SHeap) : List Cmd → List Out × SHeap
  | [] => ([], h)
  | c :: cs => match step db h c with
    | (o, h) => match run h cs with
      | (os, h) => (o :: os, h)

/-! ## `custom_properties` -/

/-- A program's objects together with the dictionaries of custom properties (`thermo.py:1114`): each stream holds a reference to one. -/
structure CHeap where
  /-- the objects -/
  heap : SHeap
  /-- `stream.custom_properties`, by stream -/
  props : List Nat
  /-- the dictionaries -/
  dicts : List (List (Str × V))

/-- The stream whose dictionary the result of a statement gets: `copy.copy` copies the reference (`thermo.py:1593`), and `+` clones the receiver in two of its cases (`thermo.py:1220,1243`);
everything else, also `extract`, starts from the constructor, which makes a new dictionary (`thermo.py:1114`). -/
def dictFrom (h : SHeap) : Cmd → Option Nat
  | .clone p => some p
  | .plus p (.tup _ _ _) => some p
  | .plus p (.pkg q) => match h.pkgs[p]?, h.pkgs[q]? with
    | some a, some b => if a.mat = b.mat then none else some p
    | _, _ => none
  | _ => none

/-- Statements on streams with custom properties. -/
inductive CCmd
  /-- as before -/
  | op (c : Cmd)
  /-- `p.custom_properties[k] = x` -/
  | setProp (p : Nat) (k : Str) (x : V)

/-- The objects after a statement whose outcome is `o` (`thermo.py:1114,1593`). -/
def CHeap.after (H : CHeap) (c : Cmd) (o : Out) (h : SHeap) : CHeap := match o with
  | .ok (some _) => match (dictFrom H.heap c).bind (H.props[·]?) with
    | some d => ⟨h, H.props ++ [d], H.dicts⟩
    | none => ⟨h, H.props ++ [H.dicts.length], H.dicts ++ [[]]⟩
  | _ => ⟨h, H.props, H.dicts⟩

/-- One statement (`thermo.py:1114,1588-1595`). -/
noncomputable def cstep (H : CHeap) : CCmd → Out × CHeap
  | .op c => match step db H.heap c with
    | (o, h) => (o, H.after c o h)
  | .setProp p k x => match H.props[p]? with
    | none => (.error .nameError, H)
    | some d => (.ok none, { H with dicts := H.dicts.set d (ThermoHeap.dictSet (H.dicts[d]?.getD []) k x) })

/-- `p.custom_properties.get(k)` (`thermo.py:1114`). -/
def CHeap.prop (H : CHeap) (p : Nat) (k : Str) : Option V := match H.props[p]? with
  | none => none
  | some d => (H.dicts[d]?.getD []).lookup k

end Auxi.StreamHeap
