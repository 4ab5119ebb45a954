import Verif.Basic
import Mathlib.Analysis.SpecialFunctions.Pow.Real
import Mathlib.Analysis.SpecialFunctions.Trigonometric.Basic
import Mathlib.Analysis.SpecialFunctions.Log.Base

/-!
# Model of `/repo/auxi/tools/transportphenomena` (dimensionless quantities, pressure drop, natural convection)

Arguments are numbers; floats are reals (no rounding, overflow, infinities or `nan`).  Not modelled: plotting, the text of warnings (printing
them has no effect on results), `references`.
-/
namespace Auxi.Transport

/-- `a / b` on Python floats: `ZeroDivisionError` (`dimensionlessquantities.py:50,63,77,116,130`, `pressuredrop.py:34,47,80,118,134`). -/
noncomputable def div (a b : ℝ) : Res ℝ := if b = 0 then .error .zeroDivisionError else .ok (a / b)

/-! ## Dimensionless quantities -/

/-- `Gr(L, Ts, Tf, beta, nu, g)` (`dimensionlessquantities.py:29-50`). -/
noncomputable def Gr (L Ts Tf beta nu g : ℝ) : Res ℝ := div (g * beta * (Ts - Tf) * L ^ 3) (nu ^ 2)

/-- `Pr(nu, alpha)` (`dimensionlessquantities.py:53-63`). -/
noncomputable def Pr (nu alpha : ℝ) : Res ℝ := div nu alpha

/-- `Re(L, v, nu)` (`dimensionlessquantities.py:66-77`). -/
noncomputable def Re (L v nu : ℝ) : Res ℝ := div (v * L) nu

/-- `Ra(L, Ts, Tf, alpha, beta, nu)` (`dimensionlessquantities.py:80-102`): the body uses the names `g` and `Tinf`, which are defined nowhere in
the module, so every call raises `NameError`. -/
def Ra (_L _Ts _Tf _alpha _beta _nu : ℝ) : Res ℝ := .error .nameError

/-- `Nu(L, h, k)` (`dimensionlessquantities.py:105-116`). -/
noncomputable def Nu (L h k : ℝ) : Res ℝ := div (h * L) k

/-- `Sh(L, h, D)` (`dimensionlessquantities.py:119-130`). -/
noncomputable def Sh (L h D : ℝ) : Res ℝ := div (h * L) D

/-! ## Pressure drop -/

/-- `math.log10`: `ValueError` unless positive (`pressuredrop.py:47,80,104`). -/
noncomputable def log10 (x : ℝ) : Res ℝ := if x ≤ 0 then .error .valueError else .ok (Real.logb 10 x)

/-- `f_l(Re_D)` (`pressuredrop.py:25-34`). -/
noncomputable def frictionLaminar (re : ℝ) : Res ℝ := div 64 re

/-- `f_ts(Re_D)` (`pressuredrop.py:37-47`). -/
noncomputable def frictionSmooth (re : ℝ) : Res ℝ :=
  match log10 re with
  | .error e => .error e
  | .ok l => div 1 ((1.82 * l - 1.64) ^ 2)

/-- `f_tr_Haaland(Re_D, ɛ, D, warn)` (`pressuredrop.py:50-80`).  A negative relative roughness to the power 1.11 is a complex number in Python, which
`math.log10` refuses with a `TypeError`.  The warnings only print. -/
noncomputable def frictionHaaland (re eps d : ℝ) : Res ℝ :=
  match div eps d with
  | .error e => .error e
  | .ok r => match div 6.9 re with
    | .error e => .error e
    | .ok a => if r < 0 then .error .typeError else
      match log10 (a + (r / 3.7) ^ (1.11 : ℝ)) with
      | .error e => .error e
      | .ok l => div 1 ((1.8 * l) ^ 2)

/-- `cb(f, Re_D, ɛ, D)`, the function whose root is sought (`pressuredrop.py:94-104`). -/
noncomputable def colebrook (re eps d f : ℝ) : Res ℝ :=
  match div eps d with
  | .error e => .error e
  | .ok r => match div 2.51 re with
    | .error e => .error e
    | .ok b => if f < 0 then .error .valueError else
      match div b (Real.sqrt f) with
      | .error e => .error e
      | .ok t => match log10 (r / 3.7 + t) with
        | .error e => .error e
        | .ok l => match div 1 (Real.sqrt f) with
          | .error e => .error e
          | .ok s => .ok (-2 * l - s)

/-- `f_tr_Colebrook(Re_D, ɛ, D)` (`pressuredrop.py:83-107`).  `scipy.optimize.root` is a parameter: what it returns (`.x[0]`) for a function and a
starting value, or the exception of the function; the code does not look at its `success` flag. -/
noncomputable def frictionColebrook (root : (ℝ → Res ℝ) → ℝ → Res ℝ) (re eps d : ℝ) : Res ℝ := root (colebrook re eps d) 0.02

/-- `D_h(A, P)` (`pressuredrop.py:110-118`). -/
noncomputable def hydraulicDiameter (a p : ℝ) : Res ℝ := div (4 * a) p

/-- `Δp(f, L, D, ρ, v)` (`pressuredrop.py:121-134`). -/
noncomputable def pressureDrop (f L d rho v : ℝ) : Res ℝ :=
  match div L d with
  | .error e => .error e
  | .ok x => .ok (f * x * (rho * v ^ 2 / 2))

/-! ## Natural convection -/

/-- A bound of a region: value and whether it is included (`naturalconvection.py:64-102`). -/
structure Bound where
  /-- the value -/
  value : ℚ
  /-- is it included? -/
  incl : Bool

/-- `IsothermalFlatSurface.Region` (`naturalconvection.py:46-102`); a limit of `None` does not bound. -/
structure Region where
  /-- `theta_min`, `theta_min_incl` -/
  thetaMin : Bound
  /-- `theta_max`, `theta_max_incl` -/
  thetaMax : Bound
  /-- `Ra_min`, `Ra_min_incl` -/
  raMin : Option Bound
  /-- `Ra_max`, `Ra_max_incl` -/
  raMax : Option Bound

/-- `_theta_min_incl` / `_theta_min_excl`, `_Ra_min_incl` / `_Ra_min_excl` (`naturalconvection.py:104-108,119-123`). -/
def Bound.below (b : Bound) (x : ℝ) : Prop := if b.incl then (b.value : ℝ) ≤ x else (b.value : ℝ) < x

/-- `_theta_max_incl` / `_theta_max_excl`, `_Ra_max_incl` / `_Ra_max_excl` (`naturalconvection.py:110-114,128-132`). -/
def Bound.above (b : Bound) (x : ℝ) : Prop := if b.incl then x ≤ (b.value : ℝ) else x < (b.value : ℝ)

/-- `Region.contains_point` (`naturalconvection.py:116-117,125-126,134-152`). -/
def Region.contains (r : Region) (theta ra : ℝ) : Prop :=
  r.thetaMin.below theta ∧ r.thetaMax.above theta ∧ (∀ b, r.raMin = some b → b.below ra) ∧ (∀ b, r.raMax = some b → b.above ra)

/-- The correlations (`naturalconvection.py:263-281`). -/
inductive Equation
  | eq8_26 | eq8_27 | eq8_27_g | eq8_38 | eq9_22 | eq9_23
  deriving DecidableEq

/-- A region as in the calls of the constructor. (`naturalconvection.py:203-259`) -/
def region (a : ℚ) (ai : Bool) (b : ℚ) (bi : Bool) (c : Option ℚ) (ci : Bool) (d : Option ℚ) (di : Bool) : Region :=
  ⟨⟨a, ai⟩, ⟨b, bi⟩, c.map (⟨·, ci⟩), d.map (⟨·, di⟩)⟩

/-- `equation_dict`, in insertion order (`naturalconvection.py:203-261`). -/
def regions : List (Region × Equation) :=
  [(region (-90) true (-60) true none false (some 4) false, .eq9_22),
   (region (-90) true (-60) true (some 4) true (some 7) true, .eq9_22),
   (region (-90) true (-60) true (some 7) false (some 11) true, .eq9_23),
   (region (-90) true (-60) true (some 11) false none false, .eq9_23),
   (region (-60) false (-52) true none false (some 7) true, .eq9_22),
   (region (-60) false (-52) true (some 7) false none false, .eq9_23),
   (region (-52) false (-45) false none false (some 7) true, .eq8_27_g),
   (region (-52) false (-45) false (some 7) false none false, .eq8_27_g),
   (region (-45) true 0 false none false (some 5) false, .eq8_27_g),
   (region (-45) true 0 false (some 5) true (some 9) true, .eq8_27_g),
   (region (-45) true 0 false (some 9) true none true, .eq8_27_g),
   (region 0 true 0 true none false (some 5) true, .eq8_26),
   (region 0 true 0 true (some 5) false (some 11) false, .eq8_26),
   (region 0 true 0 true (some 11) false none false, .eq8_26),
   (region 0 false 88 false none false (some 5) false, .eq8_27),
   (region 0 true 88 false (some 5) true (some 11) true, .eq8_27),
   (region 0 false 88 false (some 11) false none false, .eq8_27),
   (region 88 false 90 true none false (some 6) false, .eq8_38),
   (region 88 true 90 true (some 6) true (some 9) true, .eq8_38),
   (region 88 true 89 false (some 9) false none false, .eq8_38),
   (region 89 true 90 true (some 9) true (some 11) true, .eq8_38),
   (region 88 false 90 true (some 11) false none false, .eq8_38)]

open Classical in
/-- `[self.equation_dict[r] for r in self.regions if r.contains_point(theta, Ra)][0]` (`naturalconvection.py:323-324`). -/
noncomputable def choose (theta ra : ℝ) : List (Region × Equation) → Res Equation
  | [] => .error .indexError
  | (r, e) :: l => if r.contains theta ra then .ok e else choose theta ra l

/-- A Python number: a float or a complex number (whose value is not modelled). (results of `**`, `naturalconvection.py:264-281`) -/
inductive PNum
  /-- a float -/
  | real (x : ℝ)
  /-- a complex number -/
  | complex

/-- `x ** e` for a fractional positive `e`: a complex number for negative `x` (`naturalconvection.py:264,267-268,275,278,281`). -/
noncomputable def PNum.pow : PNum → ℝ → PNum
  | .complex, _ => .complex
  | .real x, e => if x < 0 then .complex else .real (x ^ e)

/-- `a * b`, complex as soon as one is (`naturalconvection.py:264-281`). -/
noncomputable def PNum.mul : PNum → PNum → PNum
  | .real a, .real b => .real (a * b)
  | _, _ => .complex

/-- `a + b` (`naturalconvection.py:267,271`). -/
noncomputable def PNum.add : PNum → PNum → PNum
  | .real a, .real b => .real (a + b)
  | _, _ => .complex

/-- `a / b` (`naturalconvection.py:264,267,340,356`).  Simplification: a complex divisor is taken not to be zero (the only one,
`(1 + z) ** (4/9)` with `z` on the ray of angle 9π/16, never is). -/
noncomputable def PNum.div : PNum → PNum → Res PNum
  | .real a, .real b => if b = 0 then .error .zeroDivisionError else .ok (.real (a / b))
  | .complex, .real b => if b = 0 then .error .zeroDivisionError else .ok .complex
  | _, .complex => .ok .complex

/-- `_Nu_x__8_26` (`naturalconvection.py:263-264`). -/
noncomputable def nu8_26 (ra pr : ℝ) : Res PNum :=
  match PNum.div (.real pr) (.real (0.952 + pr)) with
  | .error e => .error e
  | .ok q => .ok (((PNum.real 0.678).mul ((PNum.real ra).pow 0.25)).mul (q.pow 0.25))

/-- `_Nu_x__8_27` and `_Nu_x__8_27_g`, which are the same (`naturalconvection.py:266-268,270-272`). -/
noncomputable def nu8_27 (ra pr : ℝ) : Res PNum :=
  match PNum.div (.real 0.492) (.real pr) with
  | .error e => .error e
  | .ok q => match PNum.div ((PNum.real 0.67).mul ((PNum.real ra).pow 0.25)) (((PNum.real 1).add (q.pow (9 / 16))).pow (4 / 9)) with
    | .error e => .error e
    | .ok x => .ok ((PNum.real 0.68).add x)

/-- The value of a correlation (`naturalconvection.py:263-281`). -/
noncomputable def Equation.eval (q : Equation) (ra pr : ℝ) : Res PNum :=
  match q with
  | .eq8_26 => nu8_26 ra pr
  | .eq8_27 => nu8_27 ra pr
  | .eq8_27_g => nu8_27 ra pr
  | .eq8_38 => .ok ((PNum.real 0.58).mul ((PNum.real ra).pow 0.2))
  | .eq9_22 => .ok ((PNum.real 0.59).mul ((PNum.real ra).pow 0.25))
  | .eq9_23 => .ok ((PNum.real 0.1).mul ((PNum.real ra).pow (1 / 3)))

/-- The fluid: its property functions of temperature (`naturalconvection.py:300,303,316,317,355,371`). -/
structure Fluid where
  /-- `beta(T)` -/
  beta : ℝ → Res ℝ
  /-- `nu(T)` -/
  nu : ℝ → Res ℝ
  /-- `alpha(T)` -/
  alpha : ℝ → Res ℝ
  /-- `k(T)` -/
  k : ℝ → Res ℝ

/-- Standard gravity (`/repo/auxi/tools/physicalconstants.py:56`). -/
noncomputable def gravity : ℝ := 9.80665

/-- The effective gravity (`naturalconvection.py:296,305-314`). -/
noncomputable def effectiveGravity (theta Ts Tf : ℝ) : ℝ :=
  if Ts > Tf then
    if 0 < theta ∧ theta < 45 then gravity * Real.cos (theta * Real.pi / 180) else gravity
  else
    if -45 < theta ∧ theta < 0 then gravity * Real.cos (theta * Real.pi / 180) else gravity

/-- The reference temperature `self.Tr` (`naturalconvection.py:298-303`). -/
noncomputable def refTemp (isgas : Bool) (Ts Tf : ℝ) : ℝ := if isgas then Ts - 0.38 * (Ts - Tf) else Ts - 0.5 * (Ts - Tf)

/-- The Rayleigh and Prandtl numbers computed by `Nu_x` (`naturalconvection.py:295-321`). -/
noncomputable def numbers (fl : Fluid) (isgas : Bool) (L theta Ts Tf : ℝ) : Res (ℝ × ℝ) :=
  let Tr := refTemp isgas Ts Tf
  match fl.beta (if isgas then Tf else Tr) with
  | .error e => .error e
  | .ok beta => match fl.nu Tr with
    | .error e => .error e
    | .ok nu => match fl.alpha Tr with
      | .error e => .error e
      | .ok alpha => match Gr L Ts Tf beta nu (effectiveGravity theta Ts Tf) with
        | .error e => .error e
        | .ok gr => match Pr nu alpha with
          | .error e => .error e
          | .ok pr => .ok (gr * pr, pr)

/-- `Nu_x(L, theta, Ts, **statef)` (`naturalconvection.py:283-326`); `Tf = none` stands for a missing `T` argument (`naturalconvection.py:295`). -/
noncomputable def NuX (fl : Fluid) (isgas : Bool) (L theta Ts : ℝ) (Tf : Option ℝ) : Res PNum :=
  match Tf with
  | none => .error .keyError
  | some Tf => match numbers fl isgas L theta Ts Tf with
    | .error e => .error e
    | .ok (ra, pr) => match choose theta ra regions with
      | .error e => .error e
      | .ok q => q.eval ra pr

/-- `Nu_L(L, theta, Ts, **statef)` (`naturalconvection.py:328-340`). -/
noncomputable def NuL (fl : Fluid) (isgas : Bool) (L theta Ts : ℝ) (Tf : Option ℝ) : Res PNum :=
  match NuX fl isgas L theta Ts Tf with
  | .error e => .error e
  | .ok x => x.div (.real 0.75)

/-- `Nu * k / L` with `k` at the reference temperature (`naturalconvection.py:355-356,371-372`). -/
noncomputable def coefficient (fl : Fluid) (isgas : Bool) (L Ts : ℝ) (Tf : Option ℝ) (nu : Res PNum) : Res PNum :=
  match nu with
  | .error e => .error e
  | .ok x => match fl.k (refTemp isgas Ts (Tf.getD 0)) with
    | .error e => .error e
    | .ok k => (x.mul (.real k)).div (.real L)

/-- `h_x(L, theta, Ts, **statef)` (`naturalconvection.py:342-356`). -/
noncomputable def hX (fl : Fluid) (isgas : Bool) (L theta Ts : ℝ) (Tf : Option ℝ) : Res PNum :=
  coefficient fl isgas L Ts Tf (NuX fl isgas L theta Ts Tf)

/-- `h_L(L, theta, Ts, **statef)` (`naturalconvection.py:358-372`). -/
noncomputable def hL (fl : Fluid) (isgas : Bool) (L theta Ts : ℝ) (Tf : Option ℝ) : Res PNum :=
  coefficient fl isgas L Ts Tf (NuL fl isgas L theta Ts Tf)

end Auxi.Transport
