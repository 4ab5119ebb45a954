import Verif.Thermo

/-!
# Model of `/repo/auxi/tools/materialphysicalproperties/`: `core.py`, `idealgas.py`, `polynomial.py`, `gases.py`, `slags.py`, and of
`/repo/auxi/modelling/process/materials/core.py`

Floats are real numbers, composition entries rational ones (every float is rational).  Simplifications: no rounding; `math.exp` does not overflow;
plotting is left out; data sets are in `Csv`, the fitting of polynomials in `Fit`; here the coefficients and temperature limits of the fitted models are parameters;
where several things are wrong with a call, the model need not report the same one of them as Python.
`cerberus` is modelled by what its documentation says of the rules `required`, `type`, `min` and `max`; its `ValidationError` and Python's
`NotImplementedError` are both `.exception`.
-/
namespace Auxi.Phys
open Auxi.Thermo (V vadd vmul vdiv)
open Auxi.Stoich (CDict)
open Classical

/-- The gas constant (`/repo/auxi/tools/physicalconstants.py:47`). -/
noncomputable def R : ℝ := 8.314462618

/-- A value passed in a state (`core.py:180-203`): a number (`int` and `float` alike), a dictionary of numbers, or anything else. -/
inductive Val
  | num (x : ℝ)
  | dict (d : CDict)
  | other

/-- The keyword arguments of a call (`core.py:180,190`). -/
abbrev State := List (Str × Val)

/-- What a schema says of one entry; all entries are required (`idealgas.py:33,63,130-131,161-163`, `polynomial.py:74`). -/
inductive Rule
  /-- `'type': 'float'` with a minimum and perhaps a maximum -/
  | number (min : ℝ) (max : Option ℝ)
  /-- `'type': 'dict'` -/
  | dictionary

/-- A state schema (`core.py:186-188`). -/
abbrev Schema := List (Str × Rule)

/-- Whether the validator accepts a value (`core.py:186-188,197`). -/
def Rule.accepts : Rule → Val → Prop
  | .number lo hi, .num x => lo ≤ x ∧ ∀ m, hi = some m → x ≤ m
  | .dictionary, .dict _ => True
  | _, _ => False

/-- `self.state_validator.validate(state)` (`core.py:197`): unknown keys are refused, all keys of the schema are required. -/
def validates (sc : Schema) (st : State) : Prop :=
  (∀ kv ∈ st, ∃ r, sc.lookup kv.1 = some r ∧ r.accepts kv.2) ∧ ∀ k ∈ sc.map (·.1), k ∈ st.map (·.1)

/-- `Model.calculate` (`core.py:190-203`). -/
noncomputable def validate (sc : Schema) (st : State) : Res Unit := if validates sc st then .ok () else .error .exception

/-- `state[key]`, used as a number (`idealgas.py:50`). -/
def getNum (st : State) (k : Str) : Res ℝ := match st.lookup k with
  | none => .error .keyError
  | some (.num x) => .ok x
  | some _ => .error .typeError

/-- `state[key]`, used as a dictionary (`idealgas.py:183`, `gases.py:448`, `slags.py:60`). -/
def getDict (st : State) (k : Str) : Res CDict := match st.lookup k with
  | none => .error .keyError
  | some (.dict d) => .ok d
  | some _ => .error .attributeError

/-- `a / b` for Python floats (`idealgas.py:50,84,151,187`). -/
noncomputable def pydiv (a b : ℝ) : Res ℝ := if b = 0 then .error .zeroDivisionError else .ok (a / b)

/-! ## `idealgas.py` -/

/-- The schema `{"T": …}` (`idealgas.py:33,63`). -/
noncomputable def schemaT : Schema := [("T".toList, .number 0 none)]
/-- The schema `{"T": …, "P": …}` (`idealgas.py:130-131`). -/
noncomputable def schemaTP : Schema := [("T".toList, .number 0 none), ("P".toList, .number 0 none)]
/-- The schema `{"T": …, "P": …, "x": …}` (`idealgas.py:161-163`). -/
noncomputable def schemaTPx : Schema := [("T".toList, .number 0 none), ("P".toList, .number 0 none), ("x".toList, .dictionary)]

/-- `BetaT.calculate` (`idealgas.py:37-50`). -/
noncomputable def betaT (st : State) : Res ℝ := match validate schemaT st with
  | .error e => .error e
  | .ok _ => match getNum st "T".toList with
    | .error e => .error e
    | .ok T => pydiv 1 T

/-- `RhoT.calculate` (`idealgas.py:62-84`) for a model created with the given molar mass and pressure. -/
noncomputable def rhoT (molarMass P : ℝ) (st : State) : Res ℝ := match validate schemaT st with
  | .error e => .error e
  | .ok _ => match getNum st "T".toList with
    | .error e => .error e
    | .ok T => pydiv (molarMass / 1000 * P / R) T

/-- `RhoTP.calculate` (`idealgas.py:129-151`) for a model created with the given molar mass. -/
noncomputable def rhoTP (molarMass : ℝ) (st : State) : Res ℝ := match validate schemaTP st with
  | .error e => .error e
  | .ok _ => match getNum st "P".toList with
    | .error e => .error e
    | .ok P => match getNum st "T".toList with
      | .error e => .error e
      | .ok T => pydiv (molarMass / 1000 * P / R) T

/-- The loop over the composition (`idealgas.py:182-184`). -/
noncomputable def averageMass : CDict → ℝ → Res ℝ
  | [], acc => .ok acc
  | (c, x) :: d, acc => match Stoich.molarMass c with
    | .error e => .error e
    | .ok w => averageMass d (acc + (x : ℝ) * (w : ℝ))

/-- `RhoTPx.calculate` (`idealgas.py:167-187`). -/
noncomputable def rhoTPx (st : State) : Res ℝ := match validate schemaTPx st with
  | .error e => .error e
  | .ok _ => match getDict st "x".toList with
    | .error e => .error e
    | .ok d => match averageMass d 0 with
      | .error e => .error e
      | .ok m => match getNum st "P".toList with
        | .error e => .error e
        | .ok P => match getNum st "T".toList with
          | .error e => .error e
          | .ok T => pydiv (m / 1000 * P / R) T

/-! ## `polynomial.py` -/

/-- A `PolynomialModelT` (`polynomial.py:72-77`) with the temperature limits of its schema (`polynomial.py:67-68,74`). -/
structure Poly where
  /-- coefficients, from highest to lowest power -/
  coeffs : List ℝ
  /-- lowest temperature -/
  tmin : ℝ
  /-- highest temperature -/
  tmax : Option ℝ

/-- `np.polyval` (`polynomial.py:89`): Horner's scheme. -/
noncomputable def polyval (cs : List ℝ) (x : ℝ) : ℝ := cs.foldl (fun acc c => acc * x + c) 0

/-- `PolynomialModelT.calculate` (`polynomial.py:79-89`). -/
noncomputable def Poly.calculate (p : Poly) (st : State) : Res ℝ := match validate [("T".toList, .number p.tmin p.tmax)] st with
  | .error e => .error e
  | .ok _ => match getNum st "T".toList with
    | .error e => .error e
    | .ok T => .ok (polyval p.coeffs T)

/-! ## `modelling/process/materials/core.py` -/

/-- A base class `Material` (`materials/core.py:31-57`): the models given for its seven properties. -/
structure Mat where
  /-- `property_models['alpha']` -/
  alpha : Option (State → Res ℝ)
  /-- `property_models['beta']` -/
  beta : Option (State → Res ℝ)
  /-- `property_models['Cp']` -/
  Cp : Option (State → Res ℝ)
  /-- `property_models['k']` -/
  k : Option (State → Res ℝ)
  /-- `property_models['mu']` -/
  mu : Option (State → Res ℝ)
  /-- `property_models['nu']` -/
  nu : Option (State → Res ℝ)
  /-- `property_models['rho']` -/
  rho : Option (State → Res ℝ)

/-- The constructor (`materials/core.py:31-57`): the default value `None` of `property_models` is not a container. -/
def Mat.new (models : Option Mat) : Res Mat := match models with
  | none => .error .typeError
  | some m => .ok m

/-- A property without a model and without a default (`materials/core.py:70-108,120-128`). -/
def prop (m : Option (State → Res ℝ)) (st : State) : Res ℝ := match m with
  | none => .error .exception
  | some f => f st

/-- `Material.alpha` (`materials/core.py:38-39,59-68`). -/
noncomputable def Mat.getAlpha (m : Mat) (st : State) : Res ℝ := match m.alpha with
  | some f => f st
  | none => match prop m.k st with
    | .error e => .error e
    | .ok k => match prop m.rho st with
      | .error e => .error e
      | .ok rho => match pydiv k rho with
        | .error e => .error e
        | .ok q => match prop m.Cp st with
          | .error e => .error e
          | .ok c => pydiv q c

/-- `Material.nu` (`materials/core.py:53-54,110-118`). -/
noncomputable def Mat.getNu (m : Mat) (st : State) : Res ℝ := match m.nu with
  | some f => f st
  | none => match prop m.mu st with
    | .error e => .error e
    | .ok mu => match prop m.rho st with
      | .error e => .error e
      | .ok rho => pydiv mu rho

/-! ## `gases.py` -/

/-- The keys of `materials` (`gases.py:396-404`). -/
def gasNames : List Str := ["Air".toList, "Ar".toList, "NH3".toList, "CO2".toList, "CO".toList, "N2".toList, "O2".toList, "H2O".toList]

/-- The viscosity and heat capacity models of the materials (`gases.py:87-404`). -/
structure Gases where
  /-- `materials[i].mu` -/
  mu : Str → Poly
  /-- `materials[i].Cp` -/
  cp : Str → Poly

/-- `x.items() if compound in materials` (`gases.py:451-457,539-545,620-626`). -/
def known (x : CDict) : CDict := x.filter (fun e => e.1 ∈ gasNames)

/-- `x_total` (`gases.py:451-453,539-541,620-622`). -/
def total (x : CDict) : ℚ := (x.map (·.2)).sum

/-- The normalised composition (`gases.py:451-457,539-545,620-626`): with no entries nothing is divided. -/
def normalise (x : CDict) : Res CDict :=
  let y := known x
  if y ≠ [] ∧ total y = 0 then .error .zeroDivisionError else .ok (y.map (fun e => (e.1, e.2 / total y)))

/-- One entry of the composition with the value of a property of the gas (`gases.py:460,547,628`). -/
structure Comp where
  /-- the compound -/
  name : Str
  /-- its normalised mole fraction -/
  x : ℝ
  /-- the property's value -/
  v : ℝ

/-- `{i: materials[i].mu(T=T) for i in x.keys()}` (`gases.py:460,547,628`). -/
noncomputable def evalAll (f : Str → Poly) (T : Val) : CDict → Res (List Comp)
  | [] => .ok []
  | (i, x) :: d => match (f i).calculate [("T".toList, T)] with
    | .error e => .error e
    | .ok v => match evalAll f T d with
      | .error e => .error e
      | .ok l => .ok (⟨i, (x : ℝ), v⟩ :: l)

/-- `M(i)` (`gases.py:438-439,549-550,630-631`). -/
noncomputable def molarR (c : Str) : Res ℝ := match Stoich.molarMass c with
  | .error e => .error e
  | .ok w => .ok (w : ℝ)

/-- `a ** 0.5` in numpy (`gases.py:441`). -/
noncomputable def vsqrt : V → V
  | some a => if a < 0 then none else some (Real.sqrt a)
  | none => none

/-- `phi` (`gases.py:437-445`) for molar masses that are not zero.  Simplification: where a viscosity is zero numpy goes on with infinities, which can end in a finite
number again; here all that follows is `none`. -/
noncomputable def phi (Mi Mj mui muj : ℝ) : V :=
  let s := vmul (vsqrt (vdiv (some mui) (some muj))) (some ((Mj / Mi) ^ (0.25 : ℝ)))
  let r := vmul (vadd (some 1) s) (vadd (some 1) s)
  vdiv (vdiv r (some (4 / Real.sqrt 2))) (some (Real.sqrt (1 + Mi / Mj)))

/-- `sum_i` (`gases.py:462-465`). -/
noncomputable def wilkeSum (i : Comp) : List Comp → V → Res V
  | [], acc => .ok acc
  | j :: l, acc =>
    if j.name = i.name then wilkeSum i l acc
    else match molarR i.name with
      | .error e => .error e
      | .ok Mi => match molarR j.name with
        | .error e => .error e
        | .ok Mj =>
          if Mi = 0 ∨ Mj = 0 then .error .zeroDivisionError
          else wilkeSum i l (vadd acc (vmul (some j.x) (phi Mi Mj i.v j.v)))

/-- The outer loop (`gases.py:459-467`). -/
noncomputable def wilkeLoop (all : List Comp) : List Comp → V → Res V
  | [], acc => .ok acc
  | i :: l, acc => match wilkeSum i all (some 0) with
    | .error e => .error e
    | .ok s => wilkeLoop all l (vadd acc (vdiv (some (i.x * i.v)) (vadd (some i.x) s)))

/-- `WilkeMuTx.calculate` (`gases.py:422-469`). -/
noncomputable def wilke (g : Gases) (st : State) : Res V := match st.lookup "T".toList with
  | none => .error .keyError
  | some T => match getDict st "x".toList with
    | .error e => .error e
    | .ok x => match normalise x with
      | .error e => .error e
      | .ok y => match evalAll g.mu T y with
        | .error e => .error e
        | .ok l => wilkeLoop l l (some 0)

/-- The sums of a weighted mean (`gases.py:549-550,630-631`): of the values times weights, and of the weights. -/
noncomputable def weigh (w : ℝ → ℝ) : List Comp → ℝ × ℝ → Res (ℝ × ℝ)
  | [], acc => .ok acc
  | i :: l, acc => match molarR i.name with
    | .error e => .error e
    | .ok m => weigh w l (acc.1 + i.v * i.x * w m, acc.2 + i.x * w m)

/-- The weighted mean (`gases.py:549-552,630-633`); with no entries it is `0 / 0` of Python integers. -/
noncomputable def mean (w : ℝ → ℝ) (l : List Comp) : Res V :=
  if l = [] then .error .zeroDivisionError
  else match weigh w l (0, 0) with
    | .error e => .error e
    | .ok s => .ok (vdiv (some s.1) (some s.2))

/-- `HerningZippererMuTx.calculate` (`gases.py:520-552`). -/
noncomputable def herningZipperer (g : Gases) (st : State) : Res V := match st.lookup "T".toList with
  | none => .error .keyError
  | some T => match getDict st "x".toList with
    | .error e => .error e
    | .ok x => match normalise x with
      | .error e => .error e
      | .ok y => match evalAll g.mu T y with
        | .error e => .error e
        | .ok l => mean Real.sqrt l

/-- `IdealCpTx.calculate` (`gases.py:601-633`). -/
noncomputable def idealCp (g : Gases) (st : State) : Res V := match st.lookup "T".toList with
  | none => .error .keyError
  | some T => match getDict st "x".toList with
    | .error e => .error e
    | .ok x => match normalise x with
      | .error e => .error e
      | .ok y => match evalAll g.cp T y with
        | .error e => .error e
        | .ok l => mean id l

/-! ## `slags.py` -/

/-- `x.get(c, 0.0)` (`slags.py:65-75,180-188`). -/
def get (x : CDict) (c : String) : ℚ := (x.lookup c.toList).getD 0

/-- The normalised composition (`slags.py:62-63`). -/
def normAll (x : CDict) : Res CDict := if x ≠ [] ∧ total x = 0 then .error .zeroDivisionError else .ok (x.map (fun e => (e.1, e.2 / total x)))

/-- `xg` (`slags.py:65`). -/
def xg (x : CDict) : ℚ := get x "SiO2" + get x "P2O5"
/-- `xm` (`slags.py:66-68`). -/
def xm (x : CDict) : ℚ := get x "CaO" + get x "MgO" + get x "Na2O" + get x "K2O" + 3 * get x "CaF2" + get x "FeO" + get x "MnO" + 2 * get x "TiO2" + 2 * get x "ZrO2"
/-- `xa` (`slags.py:70`). -/
def xa (x : CDict) : ℚ := get x "Al2O3" + get x "Fe2O3" + get x "B2O3"
/-- `norm` (`slags.py:74-75`). -/
def norm (x : CDict) : ℚ := 1 + get x "CaF2" + get x "Fe2O3" + get x "TiO2" + get x "ZrO2"

/-- `B` (`slags.py:83-88`). -/
def urbainB (alpha g : ℚ) : ℚ :=
  13.8 + 39.9355 * alpha - 44.049 * alpha ^ 2 + (30.481 - 117.1505 * alpha + 129.9978 * alpha ^ 2) * g +
    (-40.9429 + 234.0846 * alpha - 300.04 * alpha ^ 2) * g ^ 2 + (60.7619 - 153.9276 * alpha + 211.1616 * alpha ^ 2) * g ^ 3

/-- `UrbainViscosityTx.calculate` (`slags.py:43-94`) on the state's entries. -/
noncomputable def urbain (T : ℝ) (x : CDict) : Res ℝ := match normAll x with
  | .error e => .error e
  | .ok x =>
    if norm x = 0 then .error .zeroDivisionError
    else
      let g := xg x / norm x
      let m := xm x / norm x
      let a := xa x / norm x
      if m + a = 0 then .error .zeroDivisionError
      else
        let B : ℝ := (urbainB (m / (m + a)) g : ℚ)
        if T = 0 then .error .zeroDivisionError
        else .ok (Real.exp (-0.2693 * B - 11.6725) * T * Real.exp (1000 * B / T) / 10)

/-- The use of the temperature (`slags.py:92,194`), the last thing done with the state: something that is not a number raises `TypeError` there, after all that the
composition can raise. -/
noncomputable def atT (f : ℝ → Res ℝ) : Val → Res ℝ
  | .num T => f T
  | _ => match f 1 with
    | .error e => .error e
    | .ok _ => .error .typeError

/-- `UrbainViscosityTx.calculate` (`slags.py:43-94`). -/
noncomputable def urbainTx (st : State) : Res ℝ := match st.lookup "T".toList with
  | none => .error .keyError
  | some T => match getDict st "x".toList with
    | .error e => .error e
    | .ok x => atT (fun T => urbain T x) T

/-- `UrbainViscosityTy.calculate` (`slags.py:110-128`). -/
noncomputable def urbainTy (st : State) : Res ℝ := match st.lookup "T".toList with
  | none => .error .keyError
  | some T => match getDict st "y".toList with
    | .error e => .error e
    | .ok y => match Stoich.amountFractions y with
      | .error e => .error e
      | .ok x => atT (fun T => urbain T x) T

/-- `x[key] = value` on a dictionary (`slags.py:173,175,177`): the entry is replaced, or appended if there is none. -/
def put (d : CDict) (k : Str) (v : ℚ) : CDict := if k ∈ d.map (·.1) then d.map (fun e => if e.1 = k then (k, v) else e) else d ++ [(k, v)]

/-- `if two in x: x[one] = 2.0 * x[two]` (`slags.py:172-177`). -/
def convert (d : CDict) (two one : String) : CDict := match d.lookup two.toList with
  | none => d
  | some v => put d one.toList (2 * v)

/-- The conversions, which are made in the caller's dictionary (`slags.py:172-177`). -/
def riboudDict (x : CDict) : CDict := convert (convert (convert x "P2O5" "PO2.5") "Fe2O3" "FeO1.5") "B2O3" "BO1.5"

/-- `compounds_sio2` (`slags.py:163`). -/
def cSiO2 : List String := ["SiO2", "PO2.5", "TiO2", "ZrO2"]
/-- `compounds_cao` (`slags.py:164`). -/
def cCaO : List String := ["CaO", "MgO", "FeO1.5", "FeO", "MnO", "BO1.5"]
/-- `compounds_all` (`slags.py:168-169`). -/
def cAll : List String := cSiO2 ++ cCaO ++ ["Al2O3"] ++ ["CaF2"] ++ ["Na2O", "K2O"]

/-- `sum([x.get(c, 0.0) for c in …])` (`slags.py:180,184-188`). -/
def sumOf (x : CDict) (cs : List String) : ℚ := (cs.map (get x)).sum

/-- `RiboudViscosityTx.calculate` (`slags.py:144-196`) on the state's entries: the result, and the caller's dictionary afterwards. -/
noncomputable def riboud (T : ℝ) (x : CDict) : Res ℝ × CDict :=
  let d := riboudDict x
  let t := sumOf d cAll
  if t = 0 then (.error .zeroDivisionError, d)
  else
    let x2 : ℝ := (sumOf d cCaO / t : ℚ)
    let x3 : ℝ := (sumOf d ["Al2O3"] / t : ℚ)
    let x4 : ℝ := (sumOf d ["CaF2"] / t : ℚ)
    let x5 : ℝ := (sumOf d ["Na2O", "K2O"] / t : ℚ)
    let A := Real.exp (-17.51 + 1.73 * x2 + 5.82 * x4 + 7.02 * x5 - 33.76 * x3)
    let B := 31140 - 23896 * x2 - 46356 * x4 - 39159 * x5 + 68833 * x3
    if T = 0 then (.error .zeroDivisionError, d) else (.ok (A * T * Real.exp (B / T) / 10), d)

/-- `RiboudViscosityTx.calculate` (`slags.py:144-196`): the result, and the state afterwards.  `'P2O5' in x` raises `TypeError` for a number; what is neither a number
nor a dictionary is taken to be a container without `get`, such as a string or a list (`None` would raise `TypeError` too). -/
noncomputable def riboudTx (st : State) : Res ℝ × State := match st.lookup "T".toList with
  | none => (.error .keyError, st)
  | some T => match st.lookup "x".toList with
    | none => (.error .keyError, st)
    | some (.num _) => (.error .typeError, st)
    | some .other => (.error .attributeError, st)
    | some (.dict x) => (atT (fun T => (riboud T x).1) T, st.map (fun e => if e.1 = "x".toList then (e.1, .dict (riboudDict x)) else e))

/-- `RiboudViscosityTy.calculate` (`slags.py:212-230`): the mole fractions are a new dictionary. -/
noncomputable def riboudTy (st : State) : Res ℝ × State := match st.lookup "T".toList with
  | none => (.error .keyError, st)
  | some T => match getDict st "y".toList with
    | .error e => (.error e, st)
    | .ok y => match Stoich.amountFractions y with
      | .error e => (.error e, st)
      | .ok x => (atT (fun T => (riboud T x).1) T, st)

end Auxi.Phys
