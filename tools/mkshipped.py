#!/usr/bin/env python3
"""Generate lean/Verif/ShippedThermo.lean from the thermochemical data files in /repo (the default data set)."""
import json, glob, re
from fractions import Fraction as F
D = "/repo/auxi/tools/chemistry/data/rao/"
def q(x):
    f = F(str(x)) if not isinstance(x, str) else F(x)
    return "%d" % f.numerator if f.denominator == 1 else "%d / %d" % (f.numerator, f.denominator)
class Num(str): pass
out = []
for f in sorted(glob.glob(D + "Compound_*.json")):
    c = json.load(open(f), parse_float=Num)
    ps = []
    for k, p in c["_phases"].items():
        assert p["name"] == k and not any("mag" in x for x in p)
        rs = []
        for key, r in p["_Cp_records"].items():
            ts = ["(%s, %d)" % (q(a), int(F(e))) for a, e in zip(r["_coefficients"], r["_exponents"])]
            assert all(F(e).denominator == 1 for e in r["_exponents"])
            rs.append("(%s, ⟨%s, %s, [%s]⟩)" % (q(key), q(r["Tmin"]), q(r["Tmax"]), ", ".join(ts)))
        ps.append('("%s", ⟨%s, %s, [%s]⟩)' % (k, q(p["DHref"]), q(p["Sref"]), ", ".join(rs)))
    out.append('("%s", ⟨%s,\n    [%s]⟩)' % (c["formula"], q(c["molar_mass"]), ",\n     ".join(ps)))
open("/verif/lean/Verif/ShippedThermo.lean", "w").write('''import Verif.ThermoChem

/-!
# The default thermochemical data, `/repo/auxi/tools/chemistry/data/rao/Compound_*.json` (generated by `tools/mkshipped.py`)

The data the module loads on import (`thermochemistry.py:548,744-760,883`).  Numbers are the decimal numbers in the files; the floats nearest to them
differ by rounding, which is not modelled.
-/
namespace Auxi.ThermoChem

/-- A `CpRecord` in a file (`thermochemistry.py:30-64`), with rational numbers; all exponents in the files are whole numbers. -/
structure DataRecord where
  /-- `Tmin` -/
  Tmin : ℚ
  /-- `Tmax` -/
  Tmax : ℚ
  /-- `_coefficients` and `_exponents` -/
  terms : List (ℚ × ℤ)

/-- A `Phase` in a file (`thermochemistry.py:144-202`); no phase in the default data has magnetic properties. -/
structure DataPhase where
  /-- `DHref` -/
  DHref : ℚ
  /-- `Sref` -/
  Sref : ℚ
  /-- `_Cp_records` by key -/
  records : List (ℚ × DataRecord)

/-- A `Compound` in a file (`thermochemistry.py:414-442`). -/
structure DataCompound where
  /-- `molar_mass` -/
  molarMass : ℚ
  /-- `_phases` by name -/
  phases : List (String × DataPhase)

/-- A record as an object (`Compound.read`, `/repo/auxi/core/objects.py:41-47`). -/
noncomputable def DataRecord.record (r : DataRecord) : CpRecord := ⟨r.Tmin, r.Tmax, r.terms.map (fun t => ((t.1 : ℝ), (t.2 : ℝ)))⟩

/-- A phase as an object (`Compound.read`, `/repo/auxi/core/objects.py:41-47`). -/
noncomputable def DataPhase.phase (p : DataPhase) : Phase := ⟨p.DHref, p.Sref, p.records.map (fun r => ((r.1 : ℝ), r.2.record)), none⟩

/-- A compound as an object (`Compound.read`, `/repo/auxi/core/objects.py:41-47`). -/
noncomputable def DataCompound.compound (c : DataCompound) : Compound := ⟨c.molarMass, c.phases.map (fun p => (p.1.toList, p.2.phase))⟩

/-- The default data by formula (`/repo/auxi/tools/chemistry/data/rao/Compound_*.json`). -/
def shipped : List (String × DataCompound) :=
  [''' + ",\n   ".join(out) + ''']

/-- The dictionary `compounds` after `load_data_auxi()` (`thermochemistry.py:744-760`), in some order. -/
noncomputable def shippedDb : List (Str × Compound) := shipped.map (fun c => (c.1.toList, c.2.compound))

end Auxi.ThermoChem
''')
