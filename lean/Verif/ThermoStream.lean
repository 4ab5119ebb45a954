import Verif.Thermo
import Verif.Coals

/-!
# Model of `/repo/auxi/modelling/process/materials/thermo.py`: material streams (1079-1845)

Numbers are those of `Verif.Thermo`.  Simplifications: those of `Verif.Thermo` (no rounding, temperatures above absolute zero);
`custom_properties` and `__str__`, the only method that reads them, are in `Verif.StreamHeap` and `Verif.Printout`.
-/
namespace Auxi.Thermo
open Auxi.Chem (indexOf)
open Classical

/-- `MaterialStream` (`thermo.py:1079-1122`). -/
structure Stream where
  /-- `self.material` -/
  mat : Material
  /-- `self._compound_mfrs` -/
  mfrs : List V
  /-- `self._P` -/
  P : V
  /-- `self._T` -/
  T : V
  /-- `self._Hfr` -/
  Hfr : V
  /-- `self.isCoal` -/
  isCoal : Bool
  /-- `self._HHV` (`none` is Python's `None`) -/
  HHV : Option V
  /-- `self._DH298`; `none` while the attribute does not exist -/
  DH298 : Option V

/-- `MaterialStream.mfr` (`thermo.py:1617-1625`). -/
noncomputable def Stream.mfr (s : Stream) : V := vsum s.mfrs

/-- The elements of which coal is made (`thermo.py:1335-1349,1392-1401`). -/
def coalElements : List Str := ["C".toList, "H".toList, "O".toList, "N".toList, "S".toList]

/-- The position in a list of elements of the first of which a formula entirely consists (`thermo.py:1335-1349`, `1392-1401`). -/
def pureElement (f : Str) : List Str → Res (Option ℕ)
  | [] => .ok none
  | e :: es => match Stoich.elementMassFraction f e with
    | .error x => .error x
    | .ok y => if y = 1 then .ok (some 0) else (pureElement f es).map (Option.map (· + 1))

/-- `compound.split('[')[0]` (`thermo.py:1334,1391,1717`). -/
def formulaOf (c : Str) : Str := c.takeWhile (· ≠ '[')

/-- What the loops over the compounds of a coal (`thermo.py:1332-1349,1389-1404`) collect. -/
structure CoalSums where
  /-- `m_C`, `m_H`, `m_O`, `m_N`, `m_S` -/
  m : ℕ → V
  /-- whether some of these masses was added to, so that the total is a numpy number -/
  any : Bool
  /-- `Hin` (`thermo.py:1331`) -/
  Hin : V
  /-- `Hfr` (`thermo.py:1388`) -/
  Hout : V

/-- The sums before the loop (`thermo.py:1324-1331,1382-1388`). -/
noncomputable def CoalSums.zero : CoalSums := ⟨fun _ => some 0, false, some 0, some 0⟩

/-- The loops over the compounds of a coal: `Hin` sums the enthalpies of the elements (`thermo.py:1332-1349`), `Hout` those of the other compounds
(`thermo.py:1389-1404`); `elems`/`rest` tell which of the two is computed. -/
noncomputable def coalLoop (db : Db) (m : Material) (a : List V) (T : V) (elems rest : Bool) : List Str → CoalSums → Res CoalSums
  | [], acc => .ok acc
  | c :: cs, acc => match entry m a c with
    | .error e => .error e
    | .ok x => match pureElement (formulaOf c) coalElements with
      | .error e => .error e
      | .ok (some i) =>
        let acc' := { acc with m := Function.update acc.m i (vadd (acc.m i) x), any := true }
        if elems then match thermoH db c T x with
          | .error e => .error e
          | .ok h => coalLoop db m a T elems rest cs { acc' with Hin := vadd acc.Hin h }
        else coalLoop db m a T elems rest cs acc'
      | .ok none =>
        if rest then match thermoH db c T x with
          | .error e => .error e
          | .ok h => coalLoop db m a T elems rest cs { acc with Hout := vadd acc.Hout h }
        else coalLoop db m a T elems rest cs acc

/-- `m_total` (`thermo.py:1351,1406`). -/
noncomputable def CoalSums.total (s : CoalSums) : V := vadd (vadd (vadd (vadd (s.m 0) (s.m 1)) (s.m 2)) (s.m 3)) (s.m 4)

/-- `convert_compound` (`stoichiometry.py:270-292`) for a mass that need not be finite. -/
noncomputable def ccV (x : V) (source target elt : Str) : Res V :=
  match Stoich.elementMassFraction target elt with
  | .error e => .error e
  | .ok tf => if tf = 0 then .ok (some 0) else
    match Stoich.elementMassFraction source elt with
    | .error e => .error e
    | .ok sf => .ok (vdiv (vmul x (some (sf : ℝ))) (some (tf : ℝ)))

/-- `thermo.H(product, 25, cc(mass, source, target, element))` (`thermo.py:1354-1358,1808-1810`). -/
noncomputable def productH (db : Db) (product : Str) (x : V) (source target elt : Str) : Res V :=
  match ccV x source target elt with
  | .error e => .error e
  | .ok y => thermoH db product (some 25) y

/-- `Hout` (`thermo.py:1353-1358`). -/
noncomputable def combustionProducts (db : Db) (s : CoalSums) : Res V :=
  match productH db "CO2[G]".toList (s.m 0) "C".toList "CO2".toList "C".toList with
  | .error e => .error e
  | .ok a => match productH db "H2O[L]".toList (s.m 1) "H".toList "H2O".toList "H".toList with
    | .error e => .error e
    | .ok b => match thermoH db "O2[G]".toList (some 25) (s.m 2) with
      | .error e => .error e
      | .ok c => match thermoH db "N2[G]".toList (some 25) (s.m 3) with
        | .error e => .error e
        | .ok d => match productH db "SO2[G]".toList (s.m 4) "S".toList "SO2".toList "S".toList with
          | .error e => .error e
          | .ok f => .ok (vadd (vadd (vadd (vadd (vadd (some 0) a) b) c) d) f)

/-- `MaterialStream._calculate_DH298_coal` (`thermo.py:1317-1370`). -/
noncomputable def Stream.dh298 (db : Db) (s : Stream) : Res V :=
  match coalLoop db s.mat s.mfrs (some 25) true false s.mat.compounds CoalSums.zero with
  | .error e => .error e
  | .ok k => match combustionProducts db k with
    | .error e => .error e
    | .ok h =>
      if k.any = false then .error .zeroDivisionError
      else
        let hout := vdiv h k.total
        match s.HHV with
        | none => .ok (vadd (vdiv (vsub hout k.Hin) k.total) hout)
        | some v => .ok (vadd (vmul (vdiv v (some 3.6)) (vdiv s.mfr k.total)) hout)

/-- The mass fractions of the elements (`thermo.py:1407-1411`), if finite. -/
noncomputable def CoalSums.assay (s : CoalSums) : Option Coals.Assay :=
  match vdiv (s.m 0) s.total, vdiv (s.m 1) s.total, vdiv (s.m 2) s.total, vdiv (s.m 3) s.total, vdiv (s.m 4) s.total with
  | some c, some h, some o, some n, some su => some ⟨c, h, o, n, su⟩
  | _, _, _, _, _ => none

/-- `DafHTy().calculate` on numpy numbers (`coals.py:143-170`): a division by zero does not raise.  An infinite mean atomic weight makes the result
zero, as real division does. -/
noncomputable def hdaf (T : ℝ) (y : Coals.Assay) : ℝ :=
  Coals.R / (1 / Coals.moles y / 1000) * (380 * Coals.g0 (380 / T) + 3600 * Coals.g0 (1800 / T))

/-- `(H - H298)` of dry ash-free coal in kWh/kg (`thermo.py:1413-1418`). -/
noncomputable def sensible (T : V) (y : Option Coals.Assay) : V :=
  match T, y with
  | some t, some y => some (hdaf (t + 273.15) y / 3600000 - hdaf 298.15 y / 3600000)
  | _, _ => none

/-- `MaterialStream._calculate_Hfr_coal` (`thermo.py:1372-1423`). -/
noncomputable def Stream.hfrCoal (db : Db) (s : Stream) (T : V) : Res V :=
  match coalLoop db s.mat s.mfrs T false true s.mat.compounds CoalSums.zero with
  | .error e => .error e
  | .ok k =>
    if k.any = false then .error .zeroDivisionError
    else match s.DH298 with
      | none => .error .attributeError
      | some d => .ok (vadd k.Hout (vmul (vadd (sensible T k.assay) d) k.total))

/-- `MaterialStream._calculate_Hfr` (`thermo.py:1297-1315`). -/
noncomputable def Stream.calcHfr (db : Db) (s : Stream) (T : V) : Res V :=
  if s.isCoal then s.hfrCoal db T else hLoop db s.mat s.mfrs T s.mat.compounds (some 0)

/-- The setter of `HHV` (`thermo.py:1556-1567`): outcome and stream afterwards. -/
noncomputable def Stream.setHHV (db : Db) (s : Stream) (v : Option V) : Res Unit × Stream :=
  let s' := { s with HHV := v }
  if s.isCoal then match s'.dh298 db with
    | .error e => (.error e, s')
    | .ok d => (.ok (), { s' with DH298 := some d })
  else (.ok (), s')

/-- `MaterialStream.__init__` (`thermo.py:1092-1116`). -/
noncomputable def newStream (db : Db) (m : Material) (mfrs : List V) (P T : V) (isCoal : Bool) (HHV : Option V) : Res Stream :=
  match Stream.setHHV db ⟨m, mfrs, P, T, some 0, isCoal, none, none⟩ HHV with
  | (.error e, _) => .error e
  | (.ok _, s) =>
    if vgt s.mfr (some 0) then
      match s.calcHfr db T with
      | .error e => .error e
      | .ok h => .ok { s with Hfr := h }
    else .ok s

/-- `Material.create_stream` (`thermo.py:348-373`). -/
noncomputable def Material.createStream (db : Db) (m : Material) (assay : Option Str) (mfr P T : V) (normalise : Bool) : Res Stream :=
  match assay with
  | none => newStream db m m.emptyAssay P T false none
  | some name => match m.scaled name mfr normalise with
    | .error e => .error e
    | .ok l => match m.isCoal name with
      | .error e => .error e
      | .ok b => match m.hhv name with
        | .error e => .error e
        | .ok h => newStream db m l P T b h

/-- The setter of `Hfr` (`thermo.py:1512-1522`). -/
noncomputable def Stream.setHfr (db : Db) (s : Stream) (H : V) : Res Unit × Stream :=
  let s' := { s with Hfr := H }
  match calcT s.mat.compounds.isEmpty (s'.calcHfr db) s'.T H with
  | .error e => (.error e, s')
  | .ok t => (.ok (), { s' with T := t })

/-- The setter of `T` (`thermo.py:1534-1544`). -/
noncomputable def Stream.setT (db : Db) (s : Stream) (T : V) : Res Unit × Stream :=
  let s' := { s with T := T }
  match s'.calcHfr db T with
  | .error e => (.error e, s')
  | .ok h => (.ok (), { s' with Hfr := h })

/-- The setter of `P` (`thermo.py:1577-1582`). -/
def Stream.setP (s : Stream) (P : V) : Stream := { s with P := P }

/-- `MaterialStream.get_compound_mfr` (`thermo.py:1627-1640`). -/
noncomputable def Stream.compoundMfr (s : Stream) (c : Str) : Res V :=
  if c ∈ s.mat.compounds then entry s.mat s.mfrs c else .ok (some 0)

/-- `MaterialStream._update_HHV` (`thermo.py:1803-1816`).  The carbon goes to the "compound" `COs`. -/
noncomputable def Stream.updateHHV (db : Db) (s : Stream) (c : Str) (x : V) : Res Unit × Stream :=
  if s.isCoal then match s.HHV with
    | none => (.error .typeError, s)
    | some v => match thermoH db c (some 25) x with
      | .error e => (.error e, s)
      | .ok h => match productH db "CO2[G]".toList x c "COs".toList "C".toList with
        | .error e => (.error e, s)
        | .ok h1 => match productH db "H2O[L]".toList x c "H2O".toList "H".toList with
          | .error e => (.error e, s)
          | .ok h2 => match productH db "SO2[G]".toList x c "SO2".toList "S".toList with
            | .error e => (.error e, s)
            | .ok h3 =>
              let dH := vmul (vsub (vsub (vsub h h1) h2) h3) (some 3.6)
              s.setHHV db (some (vdiv (vadd (vmul v (vsub s.mfr x)) dH) s.mfr))
  else (.ok (), s)

/-- `+ (compound, mass flow rate)` (`thermo.py:1234-1248`). -/
noncomputable def Stream.addTuple (db : Db) (s : Stream) (c : Str) (x : V) : Res Stream :=
  match s.mat.index c with
  | .error e => .error e
  | .ok i => match thermoH db c s.T x with
    | .error e => .error e
    | .ok h => match bumpAt s.mfrs i x with
      | .error e => .error e
      | .ok ms => match Stream.updateHHV db { s with mfrs := ms } c x with
        | (.error e, _) => .error e
        | (.ok _, r) => .ok { r with Hfr := vadd r.Hfr h, P := s.P }

/-- The loop over the compounds of another material (`thermo.py:1221-1230`). -/
noncomputable def Stream.addLoop (db : Db) (q : Stream) : List Str → Stream → Res Stream
  | [], r => .ok r
  | c :: cs, r =>
    if c ∉ r.mat.compounds then .error .exception
    else match q.compoundMfr c with
      | .error e => .error e
      | .ok x => match r.addTuple db c x with
        | .error e => .error e
        | .ok r' => q.addLoop db cs r'

/-- `MaterialStream.__mul__` (`thermo.py:1270-1295`). -/
noncomputable def Stream.mul (db : Db) (s : Stream) (isFloat : Bool) (k : V) : Res Stream :=
  if isFloat then
    if vgt (some 0) k then .error .exception
    else newStream db s.mat (s.mfrs.map (fun x => vmul x k)) s.P s.T s.isCoal s.HHV
  else .error .typeError

/-- `if self.HHV: HHV += self.HHV * self.mfr` (`thermo.py:1202-1205`): `None` and zero are skipped. -/
noncomputable def hhvTerm (s : Stream) (acc : V) : V :=
  match s.HHV with
  | none => acc
  | some v => if v = some 0 then acc else vadd acc (vmul v s.mfr)

/-- The higher heating value of the sum of two streams (`thermo.py:1200-1210`). -/
noncomputable def sumHHV (p q : Stream) : Option V :=
  if p.isCoal || q.isCoal then some (vdiv (hhvTerm q (hhvTerm p (some 0))) (vadd p.mfr q.mfr)) else none

/-- `MaterialStream.__add__` (`thermo.py:1176-1268`). -/
noncomputable def Stream.add (db : Db) (p : Stream) (a : Arg Stream) : Res Stream :=
  match a with
  | .pkg q =>
    if p.mat.ident = q.mat.ident then
      match arrAdd p.mfrs q.mfrs with
      | .error e => .error e
      | .ok ms => match newStream db p.mat ms (some 1) (some 25) (p.isCoal || q.isCoal) (sumHHV p q) with
        | .error e => .error e
        | .ok r => match finish (r.setHfr db (vadd p.Hfr q.Hfr)) with
          | .error e => .error e
          | .ok r' => .ok (r'.setP p.P)
    else match q.addLoop db q.mat.compounds p with
      | .error e => .error e
      | .ok r => finish (r.setHfr db (vadd p.Hfr q.Hfr))
  | .tup c b x => if b then p.addTuple db c x else .error .typeError
  | .tup3 c b x T =>
    if b then
      match p.mat.index c with
      | .error e => .error e
      | .ok i => match thermoH db c T x with
        | .error e => .error e
        | .ok h => match p.mul db true (some 1) with
          | .error e => .error e
          | .ok r => match bumpAt r.mfrs i x with
            | .error e => .error e
            | .ok ms => match finish (Stream.setHfr db { r with mfrs := ms } (vadd p.Hfr h)) with
              | .error e => .error e
              | .ok r' => .ok (r'.setP p.P)
    else .error .typeError
  | _ => .error .typeError

/-- `MaterialStream.clear` (`thermo.py:1597-1606`): it assigns to `_H`, which no method of a stream reads. -/
noncomputable def Stream.clear (s : Stream) : Stream :=
  { s with mfrs := s.mfrs.map (fun x => vmul x (some 0)), P := some 1, T := some 25 }

/-- `MaterialStream.get_assay` (`thermo.py:1608-1615`). -/
noncomputable def Stream.assay (s : Stream) : List V := s.mfrs.map (fun x => vdiv x (vsum s.mfrs))

/-- `MaterialStream.get_compound_afr` (`thermo.py:1655-1663`). -/
noncomputable def Stream.compoundAfr (s : Stream) (c : Str) : Res V :=
  match entry s.mat s.mfrs c with
  | .error e => .error e
  | .ok x => amountOf c x

/-- The loop of `MaterialStream.afr` (`thermo.py:1666-1676`). -/
noncomputable def Stream.afrLoop (s : Stream) : List Str → V → Res V
  | [], acc => .ok acc
  | c :: cs, acc => match s.compoundAfr c with
    | .error e => .error e
    | .ok n => s.afrLoop cs (vadd acc n)

/-- `MaterialStream.afr` (`thermo.py:1666-1676`). -/
noncomputable def Stream.afr (s : Stream) : Res V := s.afrLoop s.mat.compounds (some 0)

/-- The loop of `MaterialStream.get_element_mfr` (`thermo.py:1715-1719`). -/
noncomputable def Stream.elementLoop (s : Stream) (e : Str) : List Str → V → Res V
  | [], acc => .ok acc
  | c :: cs, acc => match s.compoundMfr c with
    | .error x => .error x
    | .ok x => match Stoich.elementMassFraction (formulaOf c) e with
      | .error x => .error x
      | .ok f => s.elementLoop e cs (vadd acc (vmul x (some (f : ℝ))))

/-- `MaterialStream.get_element_mfr` (`thermo.py:1708-1720`). -/
noncomputable def Stream.elementMfr (s : Stream) (e : Str) : Res V := s.elementLoop e s.mat.compounds (some 0)

/-- `MaterialStream.get_element_mfrs` (`thermo.py:1678-1691`).  The product of a `numpy.float64` and a list raises a `TypeError` (NumPy 1.12 and
later); hence the loop cannot complete its first pass. -/
noncomputable def Stream.elementMfrs (s : Stream) (elts : Option (List Str)) : Res (List V) :=
  let es := elts.getD s.mat.elements
  match s.mat.compounds with
  | [] => .ok (List.replicate es.length (some 0))
  | c :: _ => match s.compoundMfr c with
    | .error e => .error e
    | .ok _ => match Stoich.elementMassFractions c es with
      | .error e => .error e
      | .ok _ => .error .typeError

/-- `self.T = self.T` at the end of an extraction (`thermo.py:1780-1782,1799-1801`). -/
noncomputable def settleS (db : Db) (s : Stream) (r : Stream) : Res Stream × Stream :=
  match s.setT db s.T with
  | (.error e, s') => (.error e, s')
  | (.ok _, s') => (.ok r, s')

/-- `MaterialStream._extract_mfr` (`thermo.py:1768-1782`): outcome and stream afterwards.  The part is never coal. -/
noncomputable def Stream.extractMfr (db : Db) (s : Stream) (x : V) : Res Stream × Stream :=
  if vgt x s.mfr then (.error .exception, s)
  else
    let f := vdiv x s.mfr
    match newStream db s.mat (s.mfrs.map (fun y => vmul y f)) s.P s.T false none with
    | .error e => (.error e, s)
    | .ok r => settleS db { s with mfrs := s.mfrs.map (fun y => vmul y (vsub (some 1) f)) } r

/-- `MaterialStream._extract_compound` (`thermo.py:1784-1801`). -/
noncomputable def Stream.extractCompound (db : Db) (s : Stream) (c : Str) : Res Stream × Stream :=
  match s.mat.createStream db none (some 0) (some 1) (some 25) true with
  | .error e => (.error e, s)
  | .ok r =>
    if c ∉ s.mat.compounds then (.ok r, s)
    else match s.mat.index c with
      | .error e => (.error e, s)
      | .ok i => match s.mfrs[i]? with
        | none => (.error .indexError, s)
        | some y => match Stream.setT db { r with mfrs := r.mfrs.set i y } s.T with
          | (.error e, _) => (.error e, s)
          | (.ok _, r') =>
            match Stream.updateHHV db { s with mfrs := s.mfrs.set i (some 0) } c (vsub (some 0) y) with
            | (.error e, s') => (.error e, s')
            | (.ok _, s') => settleS db s' (r'.setP s.P)

/-- `MaterialStream._extract_compound_mfr` (`thermo.py:1818-1835`). -/
noncomputable def Stream.extractCompoundMfr (db : Db) (s : Stream) (c : Str) (x : V) : Res Stream × Stream :=
  if c ∉ s.mat.compounds then (s.mat.createStream db none (some 0) (some 1) (some 25) true, s)
  else match s.mat.index c with
    | .error e => (.error e, s)
    | .ok i => match s.mfrs[i]? with
      | none => (.error .indexError, s)
      | some y =>
        if vgt x y then (.error .exception, s)
        else
          match Stream.updateHHV db { s with mfrs := s.mfrs.set i (vsub y x) } c (vsub (some 0) x) with
          | (.error e, s') => (.error e, s')
          | (.ok _, s1) => match s1.setT db s1.T with
            | (.error e, s') => (.error e, s')
            | (.ok _, s') => match s'.mat.createStream db none (some 0) s'.P s'.T true with
              | .error e => (.error e, s')
              | .ok r => (r.addTuple db c x, s')

/-- The loop of `MaterialStream._extract_material` (`thermo.py:1839-1842`). -/
noncomputable def extractLoopS (db : Db) : List Str → Stream → Stream → Res Stream × Stream
  | [], r, s => (.ok r, s)
  | c :: cs, r, s => match s.compoundMfr c with
    | .error e => (.error e, s)
    | .ok x => match r.addTuple db c x with
      | .error e => (.error e, s)
      | .ok r' => match s.extractCompound db c with
        | (.error e, s') => (.error e, s')
        | (.ok _, s') => extractLoopS db cs r' s'

/-- `MaterialStream._extract_material` (`thermo.py:1837-1845`). -/
noncomputable def Stream.extractMaterial (db : Db) (s : Stream) (m : Material) : Res Stream × Stream :=
  match m.createStream db none (some 0) (some 1) (some 25) true with
  | .error e => (.error e, s)
  | .ok r => match extractLoopS db m.compounds r s with
    | (.error e, s') => (.error e, s')
    | (.ok r', s') => (finish (r'.setT db s'.T), s')

/-- `MaterialStream.extract` (`thermo.py:1722-1766`): the extracted stream or the error, and the stream afterwards. -/
noncomputable def Stream.extract (db : Db) (s : Stream) (a : Arg Stream) : Res Stream × Stream :=
  match a with
  | .num b x => if b then s.extractMfr db x else (.error .typeError, s)
  | .tup c b x => if b then s.extractCompoundMfr db c x else (.error .typeError, s)
  | .str c => s.extractCompound db c
  | .mat m => s.extractMaterial db m
  | _ => (.error .typeError, s)

end Auxi.Thermo
