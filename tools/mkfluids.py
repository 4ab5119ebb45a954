#!/usr/bin/env python3
"""Generate lean/Verif/ShippedFluids.lean from the fitted models in /repo that gases.py and liquids.py load."""
import json, os
from fractions import Fraction as F
from decimal import Decimal
D = '/repo/auxi/tools/materialphysicalproperties/data/'
GASES = [('Air', 'air', '92-118'), ('Ar', 'argon', '131-156'), ('NH3', 'ammonia', '169-193'), ('CO2', 'carbon-dioxide', '206-230'),
         ('CO', 'carbon-monoxide', '243-268'), ('N2', 'nitrogen', '281-306'), ('O2', 'oxygen', '319-344'), ('H2O', 'water-vapour', '357-382')]

def rat(x):
    f = F(Decimal(x))
    s = f"{abs(f.numerator)}" + (f" / {f.denominator}" if f.denominator != 1 else "")
    return f"(-({s}))" if f < 0 else s

def poly(path):
    j = json.load(open(D + path), parse_float=str, parse_int=str)
    t = j['state_schema']['T']
    assert j['state_validator']['schema']['T'] == t
    return "⟨[" + ", ".join(rat(c) for c in j['_coeffs']) + "], " + rat(t['min']) + ", " + rat(t['max']) + "⟩"

out = ['''import Verif.PhysProps

/-!
# The fitted models shipped with the code, generated by `tools/mkfluids.py`

The numbers are the decimals written in the files under `/repo/auxi/tools/materialphysicalproperties/data/` that `gases.py:84-404` and `liquids.py:41-53` load.
Only the models that these modules use are listed.
-/
namespace Auxi.Phys

/-- A file with a fitted model (`polynomial.py:72-77`): `_coeffs` and the limits in `state_schema`. -/
structure DataPoly where
  /-- `_coeffs`, from highest to lowest power -/
  coeffs : List ℚ
  /-- `state_schema['T']['min']` -/
  tmin : ℚ
  /-- `state_schema['T']['max']` -/
  tmax : ℚ

/-- The object read from the file (`polynomial.py:72-77`, `/repo/auxi/core/objects.py:44-51`). -/
noncomputable def DataPoly.poly (d : DataPoly) : Poly := ⟨d.coeffs.map (fun q : ℚ => (q : ℝ)), (d.tmin : ℝ), some (d.tmax : ℝ)⟩

/-- The models of a gas (`gases.py:107-118`). -/
structure DataGas where
  /-- heat capacity -/
  Cp : DataPoly
  /-- viscosity -/
  mu : DataPoly
  /-- conductivity -/
  k : DataPoly
  /-- density, if it is not that of an ideal gas -/
  rho : Option DataPoly

/-- The models of a liquid (`liquids.py:41-53`). -/
structure DataLiquid where
  /-- expansion coefficient -/
  beta : DataPoly
  /-- heat capacity -/
  Cp : DataPoly
  /-- conductivity -/
  k : DataPoly
  /-- viscosity -/
  mu : DataPoly
  /-- kinematic viscosity -/
  nu : DataPoly
  /-- density -/
  rho : DataPoly
''']
for f, n, lines in GASES:
    ds = f"dataset-{n}-lienhard2018"
    out.append(f"/-- `{n}-*-polynomialmodelt-{ds}.json` (`gases.py:{lines}`). -/\ndef data{f} : DataGas :=\n  ⟨" +
               ",\n   ".join(poly(f"{n}-{s}-polynomialmodelt-{ds}.json") for s in ['cp', 'mu', 'k']) +
               (",\n   some " + poly(f"{n}-rho-polynomialmodelt-{ds}.json") if f in ('NH3', 'CO2') else ", none") + "⟩\n")
out.append("/-- The gases by the keys of `materials` (`gases.py:396-404`). -/\ndef gasData : List (Str × DataGas) :=\n  [" +
           ", ".join(f'("{f}".toList, data{f})' for f, _, _ in GASES) + "]\n")
out.append("/-- `water-*.json` (`liquids.py:41-53`). -/\ndef dataWater : DataLiquid :=\n  ⟨" + ",\n   ".join(poly(f"water-{s}.json") for s in ['beta', 'cp', 'k', 'mu', 'nu', 'rho']) + "⟩\n")
out.append('''/-- The molar mass used for a gas (`gases.py:92,131,169,206,243,281,319,357`): a number for air, otherwise that of the formula (no error occurs for these formulas). -/
def gasMass (f : Str) : ℚ := if f = "Air".toList then 28.9645 else match Stoich.molarMass f with
  | .ok m => m
  | .error _ => 0

/-- The material of a gas (`gases.py:109-118,147-156,185-193,222-230,259-268,297-306,335-344,373-382`): `IgRhoT(mm, 101325.0)` except for ammonia and carbon dioxide,
`IgBetaT()` and the fitted models. -/
noncomputable def gasMat (f : Str) (d : DataGas) : Mat :=
  ⟨none, some betaT, some d.Cp.poly.calculate, some d.k.poly.calculate, some d.mu.poly.calculate, none, some (match d.rho with
    | some p => p.poly.calculate
    | none => rhoT (gasMass f) 101325)⟩

/-- The material water (`liquids.py:46-53`). -/
noncomputable def water : Mat :=
  ⟨none, some dataWater.beta.poly.calculate, some dataWater.Cp.poly.calculate, some dataWater.k.poly.calculate, some dataWater.mu.poly.calculate,
    some dataWater.nu.poly.calculate, some dataWater.rho.poly.calculate⟩

/-- A model of one of the `materials` (`gases.py:396-404`); only asked for keys of `materials`. -/
noncomputable def gasPoly (f : DataGas → DataPoly) (i : Str) : Poly := match gasData.lookup i with
  | some d => (f d).poly
  | none => ⟨[], 0, none⟩

/-- The models that the mixture models use (`gases.py:460,547,628`). -/
noncomputable def shippedGases : Gases := ⟨gasPoly DataGas.mu, gasPoly DataGas.Cp⟩

end Auxi.Phys
''')
open(os.path.join(os.path.dirname(__file__), '..', 'lean', 'Verif', 'ShippedFluids.lean'), 'w').write("\n".join(out))
