import Verif.ThermoChem

/-!
# The default thermochemical data, `/repo/auxi/tools/chemistry/data/rao/Compound_*.json` (generated by `tools/mkshipped.py`)

The data the module loads on import (`thermochemistry.py:548,744-760,883`).  Numbers are the decimal numbers in the files; the floats nearest to them
differ by rounding, which is not modelled.
-/
namespace Auxi.ThermoChem

/-- A `CpRecord` in a file (`thermochemistry.py:30-64`), with rational numbers; all exponents in the files are whole numbers. -/
structure DataRecord where
  /-- `Tmin` -/
  Tmin : ℚ
  /-- `Tmax` -/
  Tmax : ℚ
  /-- `_coefficients` and `_exponents` -/
  terms : List (ℚ × ℤ)

/-- A `Phase` in a file (`thermochemistry.py:144-202`); no phase in the default data has magnetic properties. -/
structure DataPhase where
  /-- `DHref` -/
  DHref : ℚ
  /-- `Sref` -/
  Sref : ℚ
  /-- `_Cp_records` by key -/
  records : List (ℚ × DataRecord)

/-- A `Compound` in a file (`thermochemistry.py:414-442`). -/
structure DataCompound where
  /-- `molar_mass` -/
  molarMass : ℚ
  /-- `_phases` by name -/
  phases : List (String × DataPhase)

/-- A record as an object (`Compound.read`, `/repo/auxi/core/objects.py:41-47`). -/
noncomputable def DataRecord.record (r : DataRecord) : CpRecord := ⟨r.Tmin, r.Tmax, r.terms.map (fun t => ((t.1 : ℝ), (t.2 : ℝ)))⟩

/-- A phase as an object (`Compound.read`, `/repo/auxi/core/objects.py:41-47`). -/
noncomputable def DataPhase.phase (p : DataPhase) : Phase := ⟨p.DHref, p.Sref, p.records.map (fun r => ((r.1 : ℝ), r.2.record)), none⟩

/-- A compound as an object (`Compound.read`, `/repo/auxi/core/objects.py:41-47`). -/
noncomputable def DataCompound.compound (c : DataCompound) : Compound := ⟨c.molarMass, c.phases.map (fun p => (p.1.toList, p.2.phase))⟩

/-- The default data by formula (`/repo/auxi/tools/chemistry/data/rao/Compound_*.json`). -/
def shipped : List (String × DataCompound) :=
  [("Ag", ⟨539341 / 5000000,
    [("L", ⟨8936, 47187 / 1000, [(3000, ⟨5963 / 20, 3000, [(30543 / 1000, 0)]⟩)]⟩),
     ("S", ⟨0, 851 / 20, [(3000, ⟨5963 / 20, 3000, [(21297 / 1000, 0), (1707 / 200000, 1), (150600, -2)]⟩)]⟩)]⟩),
   ("AgCl", ⟨1433209 / 10000000,
    [("L", ⟨-117430, 21273 / 200, [(3000, ⟨5963 / 20, 3000, [(8368 / 125, 0)]⟩)]⟩),
     ("S", ⟨-127070, 9623 / 100, [(3000, ⟨5963 / 20, 3000, [(31129 / 500, 0), (523 / 125000, 1), (-1129700, -2)]⟩)]⟩)]⟩),
   ("AgI", ⟨11738633500000001 / 50000000000000000,
    [("S1", ⟨-61923, 57739 / 500, [(3000, ⟨5963 / 20, 3000, [(24351 / 1000, 0), (50417 / 500000, 1)]⟩)]⟩)]⟩),
   ("Al", ⟨13490769 / 500000000,
    [("G", ⟨329700, 4111 / 25, [(3000, ⟨5963 / 20, 3000, [(20799 / 1000, 0)]⟩)]⟩),
     ("L", ⟨8233, 6947 / 200, [(3000, ⟨5963 / 20, 3000, [(15899 / 500, 0)]⟩)]⟩),
     ("S", ⟨0, 567 / 20, [(3000, ⟨5963 / 20, 3000, [(20669 / 1000, 0), (2477 / 200000, 1)]⟩)]⟩)]⟩),
   ("Al2O3", ⟨25490319 / 250000000,
    [("S", ⟨-1675700, 1273 / 25, [(3000, ⟨5963 / 20, 3000, [(13326 / 125, 0), (8891 / 500000, 1), (-2853500, -2)]⟩)]⟩)]⟩),
   ("AlSb", ⟨7437076899999999 / 50000000000000000,
    [("S", ⟨-50208, 32489 / 500, [(3000, ⟨5963 / 20, 3000, [(21757 / 500, 0), (9623 / 1000000, 1)]⟩)]⟩)]⟩),
   ("As", ⟨23413 / 312500,
    [("S", ⟨0, 3569 / 100, [(3000, ⟨5963 / 20, 3000, [(23179 / 1000, 0), (5523 / 1000000, 1)]⟩)]⟩)]⟩),
   ("As2O3", ⟨989207 / 5000000,
    [("S", ⟨-653332, 122717 / 1000, [(3000, ⟨5963 / 20, 3000, [(59831 / 1000, 0), (10983 / 62500, 1)]⟩)]⟩)]⟩),
   ("As4", ⟨23413 / 78125,
    [("S", ⟨153302, 163657 / 500, [(3000, ⟨5963 / 20, 3000, [(82939 / 1000, 0), (13 / 100000, 1), (-513000, -2)]⟩)]⟩)]⟩),
   ("Br2", ⟨2497 / 15625,
    [("G", ⟨30910, 4907 / 20, [(3000, ⟨5963 / 20, 3000, [(37363 / 1000, 0), (23 / 50000, 1), (-129700, -2)]⟩)]⟩)]⟩),
   ("C", ⟨120107 / 10000000,
    [("Sgr", ⟨0, 287 / 50, [(3000, ⟨5963 / 20, 3000, [(8577 / 500, 0), (1067 / 250000, 1), (-878600, -2)]⟩)]⟩)]⟩),
   ("CH4", ⟨8021229999999999 / 500000000000000000,
    [("G", ⟨-74852, 46547 / 250, [(3000, ⟨5963 / 20, 3000, [(591 / 25, 0), (9573 / 200000, 1), (-192500, -2)]⟩)]⟩)]⟩),
   ("CO", ⟨28010100000000003 / 1000000000000000000,
    [("G", ⟨-110530, 49389 / 250, [(3000, ⟨5963 / 20, 3000, [(28409 / 1000, 0), (41 / 10000, 1), (-46000, -2)]⟩)]⟩)]⟩),
   ("CO2", ⟨88019 / 2000000,
    [("G", ⟨-393510, 213677 / 1000, [(3000, ⟨5963 / 20, 3000, [(44141 / 1000, 0), (9037 / 1000000, 1), (-853500, -2)]⟩)]⟩)]⟩),
   ("COCl2", ⟨197831 / 2000000,
    [("G", ⟨-223007, 144557 / 500, [(3000, ⟨5963 / 20, 3000, [(35501 / 500, 0), (3431 / 500000, 1), (-1104600, -2)]⟩)]⟩)]⟩),
   ("COS", ⟨6007610000000001 / 100000000000000000,
    [("G", ⟨-138407, 231459 / 1000, [(3000, ⟨5963 / 20, 3000, [(9481 / 200, 0), (9121 / 1000000, 1), (-765700, -2)]⟩)]⟩)]⟩),
   ("Ca", ⟨20039 / 500000,
    [("L", ⟨10904, 50647 / 1000, [(3000, ⟨5963 / 20, 3000, [(241 / 8, 0)]⟩)]⟩),
     ("S1", ⟨0, 208 / 5, [(3000, ⟨5963 / 20, 3000, [(25507 / 1000, 0), (521 / 200000, 1)]⟩)]⟩),
     ("S2", ⟨490, 10617 / 250, [(3000, ⟨5963 / 20, 3000, [(3359 / 200, 0), (887 / 40000, 1)]⟩)]⟩)]⟩),
   ("CaCO3", ⟨1000869 / 10000000,
    [("S", ⟨-1207126, 88701 / 1000, [(3000, ⟨5963 / 20, 3000, [(26129 / 250, 0), (5481 / 250000, 1), (-2594100, -2)]⟩)]⟩)]⟩),
   ("CaO", ⟨28038700000000003 / 500000000000000000,
    [("S", ⟨-635090, 381 / 10, [(3000, ⟨5963 / 20, 3000, [(24811 / 500, 0), (4519 / 1000000, 1), (-694500, -2)]⟩)]⟩)]⟩),
   ("CaS", ⟨4509 / 62500,
    [("S", ⟨-476139, 14121 / 250, [(3000, ⟨5963 / 20, 3000, [(45187 / 1000, 0), (387 / 50000, 1)]⟩)]⟩)]⟩),
   ("CaSiO3", ⟨11616169999999999 / 100000000000000000,
    [("S", ⟨-1634909, 41003 / 500, [(3000, ⟨5963 / 20, 3000, [(27039 / 250, 0), (3297 / 200000, 1), (-2364000, -2)]⟩)]⟩)]⟩),
   ("Cd", ⟨112411 / 1000000,
    [("G", ⟨111797, 20954 / 125, [(3000, ⟨5963 / 20, 3000, [(10393 / 500, 0)]⟩)]⟩),
     ("L", ⟨5809, 15263 / 250, [(3000, ⟨5963 / 20, 3000, [(14853 / 500, 0)]⟩)]⟩),
     ("S", ⟨0, 259 / 5, [(3000, ⟨5963 / 20, 3000, [(22217 / 1000, 0), (123 / 10000, 1)]⟩)]⟩)]⟩),
   ("CdO", ⟨160513 / 1250000,
    [("S", ⟨-259408, 274 / 5, [(3000, ⟨5963 / 20, 3000, [(24121 / 500, 0), (6381 / 1000000, 1), (-489500, -2)]⟩)]⟩)]⟩),
   ("CdS", ⟨144477 / 1000000,
    [("S", ⟨-149369, 17259 / 250, [(3000, ⟨5963 / 20, 3000, [(1114 / 25, 0), (13807 / 1000000, 1)]⟩)]⟩)]⟩),
   ("Cl2", ⟨354527 / 5000000,
    [("G", ⟨0, 44593 / 200, [(3000, ⟨5963 / 20, 3000, [(36903 / 1000, 0), (251 / 1000000, 1), (-284500, -2)]⟩)]⟩)]⟩),
   ("CoO", ⟨7493259999999999 / 100000000000000000,
    [("S", ⟨-238906, 6616 / 125, [(3000, ⟨5963 / 20, 3000, [(48283 / 1000, 0), (1707 / 200000, 1), (167400, -2)]⟩)]⟩)]⟩),
   ("Co", ⟨147333 / 2500000,
    [("L", ⟨18004, 4097 / 100, [(3000, ⟨5963 / 20, 3000, [(5047 / 125, 0)]⟩)]⟩),
     ("Salpha", ⟨0, 30041 / 1000, [(3000, ⟨5963 / 20, 3000, [(1069 / 50, 0), (14309 / 1000000, 1), (-87900, -2)]⟩)]⟩),
     ("Sbeta", ⟨1288, 6531 / 200, [(3000, ⟨5963 / 20, 3000, [(13807 / 1000, 0), (12259 / 500000, 1)]⟩)]⟩)]⟩),
   ("Cr", ⟨12999024999999999 / 250000000000000000,
    [("L", ⟨26104, 36233 / 1000, [(3000, ⟨5963 / 20, 3000, [(3933 / 100, 0)]⟩)]⟩),
     ("S", ⟨0, 591 / 25, [(3000, ⟨5963 / 20, 3000, [(4887 / 200, 0), (4937 / 500000, 1), (-368200, -2)]⟩)]⟩)]⟩),
   ("Cu", ⟨31773 / 500000,
    [("G", ⟨336812, 20784 / 125, [(3000, ⟨5963 / 20, 3000, [(9933 / 1000, 0), (5071 / 1000000, 1)]⟩)]⟩),
     ("L", ⟨9305, 18123 / 500, [(3000, ⟨5963 / 20, 3000, [(1569 / 50, 0)]⟩)]⟩),
     ("S", ⟨0, 663 / 20, [(3000, ⟨5963 / 20, 3000, [(4527 / 200, 0), (1569 / 250000, 1)]⟩)]⟩)]⟩),
   ("Cu2O", ⟨7154569999999999 / 50000000000000000,
    [("S", ⟨-167360, 46547 / 500, [(3000, ⟨5963 / 20, 3000, [(31171 / 500, 0), (23849 / 1000000, 1)]⟩)]⟩)]⟩),
   ("Cu2S", ⟨7957900000000001 / 50000000000000000,
    [("Salpha", ⟨-79496, 60459 / 500, [(3000, ⟨5963 / 20, 3000, [(20397 / 250, 0)]⟩)]⟩)]⟩),
   ("CuO", ⟨397727 / 5000000,
    [("S", ⟨-155226, 42677 / 1000, [(3000, ⟨5963 / 20, 3000, [(19393 / 500, 0), (20083 / 1000000, 1)]⟩)]⟩)]⟩),
   ("CuS", ⟨9561199999999999 / 100000000000000000,
    [("S", ⟨-52300, 33263 / 500, [(3000, ⟨5963 / 20, 3000, [(887 / 20, 0), (5523 / 500000, 1)]⟩)]⟩)]⟩),
   ("CuSO4", ⟨24939 / 156250,
    [("S", ⟨-771100, 546 / 5, [(3000, ⟨5963 / 20, 3000, [(39267 / 500, 0), (14393 / 200000, 1)]⟩)]⟩)]⟩),
   ("F2", ⟨5937001 / 156250000,
    [("G", ⟨0, 40537 / 200, [(3000, ⟨5963 / 20, 3000, [(6937 / 200, 0), (1841 / 1000000, 1), (-334700, -2)]⟩)]⟩)]⟩),
   ("Fe", ⟨11169 / 200000,
    [("G", ⟨416308, 180381 / 1000, [(3000, ⟨5963 / 20, 3000, [(3143 / 200, 0), (3473 / 1000000, 1)]⟩)]⟩),
     ("L", ⟨13129, 4286 / 125, [(3000, ⟨5963 / 20, 3000, [(177 / 5, 0), (749 / 200000, 1)]⟩)]⟩),
     ("Salpha", ⟨0, 682 / 25, [(3000, ⟨5963 / 20, 3000, [(17489 / 1000, 0), (24769 / 1000000, 1)]⟩)]⟩),
     ("Sbeta", ⟨3893, 29711 / 1000, [(3000, ⟨5963 / 20, 3000, [(7071 / 250, 0), (7531 / 1000000, 1)]⟩)]⟩),
     ("Sgamma", ⟨6778, 6731 / 200, [(3000, ⟨5963 / 20, 3000, [(2661 / 100, 0), (1569 / 250000, 1)]⟩)]⟩)]⟩),
   ("Fe2O3", ⟨798441 / 5000000,
    [("Salpha", ⟨-821319, 43723 / 500, [(3000, ⟨5963 / 20, 3000, [(49141 / 500, 0), (38911 / 500000, 1), (-1485300, -2)]⟩)]⟩)]⟩),
   ("Fe3O4", ⟨1157663 / 5000000,
    [("Salpha", ⟨-1116710, 151461 / 1000, [(3000, ⟨5963 / 20, 3000, [(45773 / 500, 0), (201669 / 1000000, 1)]⟩)]⟩)]⟩),
   ("FeO", ⟨7184439999999999 / 100000000000000000,
    [("S", ⟨-264429, 11757 / 200, [(3000, ⟨5963 / 20, 3000, [(25899 / 500, 0), (3389 / 500000, 1), (-159000, -2)]⟩)]⟩)]⟩),
   ("FeS", ⟨87911 / 1000000,
    [("Salpha", ⟨-100416, 60291 / 1000, [(3000, ⟨5963 / 20, 3000, [(4343 / 200, 0), (55229 / 500000, 1)]⟩)]⟩)]⟩),
   ("H2", ⟨20158800000000003 / 10000000000000000000,
    [("G", ⟨0, 13057 / 100, [(3000, ⟨5963 / 20, 3000, [(682 / 25, 0), (51 / 15625, 1), (50200, -2)]⟩)]⟩)]⟩),
   ("H2O", ⟨225191 / 12500000,
    [("G", ⟨-241814, 47181 / 250, [(3000, ⟨5963 / 20, 3000, [(30, 0), (10711 / 1000000, 1), (33500, -2)]⟩)]⟩),
     ("L", ⟨-285830, 1399 / 20, [(3000, ⟨5963 / 20, 3000, [(37719 / 500, 0)]⟩)]⟩)]⟩),
   ("H2S", ⟨852047 / 25000000,
    [("G", ⟨-20502, 51411 / 250, [(3000, ⟨5963 / 20, 3000, [(32677 / 1000, 0), (2477 / 200000, 1), (-192500, -2)]⟩)]⟩)]⟩),
   ("HBr", ⟨4045597 / 50000000,
    [("G", ⟨-36380, 39717 / 200, [(3000, ⟨5963 / 20, 3000, [(523 / 20, 0), (2929 / 500000, 1), (108800, -2)]⟩)]⟩)]⟩),
   ("HCl", ⟨9115159999999999 / 250000000000000000,
    [("G", ⟨-92310, 93393 / 500, [(3000, ⟨5963 / 20, 3000, [(26527 / 1000, 0), (2301 / 500000, 1), (108800, -2)]⟩)]⟩)]⟩),
   ("HI", ⟨12791241 / 100000000,
    [("G", ⟨26359, 5162 / 25, [(3000, ⟨5963 / 20, 3000, [(26317 / 1000, 0), (5941 / 1000000, 1), (92100, -2)]⟩)]⟩)]⟩),
   ("I2", ⟨12690447 / 50000000,
    [("G", ⟨62425, 260567 / 1000, [(3000, ⟨5963 / 20, 3000, [(7481 / 200, 0), (569 / 1000000, 1), (-62800, -2)]⟩)]⟩)]⟩),
   ("K2CO3", ⟨276411 / 2000000,
    [("S", ⟨-1150182, 155519 / 1000, [(3000, ⟨5963 / 20, 3000, [(80291 / 1000, 0), (21807 / 200000, 1)]⟩)]⟩)]⟩),
   ("Mg", ⟨4861 / 200000,
    [("G", ⟨147612, 148549 / 1000, [(3000, ⟨5963 / 20, 3000, [(10393 / 500, 0)]⟩)]⟩),
     ("L", ⟨9029, 8501 / 200, [(3000, ⟨5963 / 20, 3000, [(441 / 20, 0), (1363 / 125000, 1)]⟩)]⟩),
     ("S", ⟨0, 817 / 25, [(3000, ⟨5963 / 20, 3000, [(223 / 10, 0), (41 / 4000, 1), (-43100, -2)]⟩)]⟩)]⟩),
   ("MgCO3", ⟨843139 / 10000000,
    [("S", ⟨-1111689, 8232 / 125, [(3000, ⟨5963 / 20, 3000, [(38953 / 500, 0), (57739 / 1000000, 1), (-1740500, -2)]⟩)]⟩)]⟩),
   ("MgO", ⟨10076100000000001 / 250000000000000000,
    [("S", ⟨-601500, 539 / 20, [(3000, ⟨5963 / 20, 3000, [(9799 / 200, 0), (1569 / 500000, 1), (-1171500, -2)]⟩)]⟩)]⟩),
   ("N2", ⟨700337 / 25000000,
    [("G", ⟨0, 95751 / 500, [(3000, ⟨5963 / 20, 3000, [(5573 / 200, 0), (1067 / 250000, 1)]⟩)]⟩)]⟩),
   ("NH3", ⟨106441 / 6250000,
    [("G", ⟨-45940, 19267 / 100, [(3000, ⟨5963 / 20, 3000, [(37321 / 1000, 0), (18661 / 1000000, 1), (-648500, -2)]⟩)]⟩)]⟩),
   ("Na2CO3", ⟨2649711 / 25000000,
    [("S", ⟨-1130935, 138783 / 1000, [(3000, ⟨5963 / 20, 3000, [(14623 / 250, 0), (22761 / 100000, 1), (-1309600, -2)]⟩)]⟩)]⟩),
   ("Ni", ⟨293467 / 5000000,
    [("L", ⟨8322, 1369 / 50, [(3000, ⟨5963 / 20, 3000, [(38911 / 1000, 0)]⟩)]⟩),
     ("Salpha", ⟨0, 14937 / 500, [(3000, ⟨5963 / 20, 3000, [(2507 / 200, 0), (7163 / 200000, 1), (246900, -2)]⟩)]⟩),
     ("Sbeta", ⟨625, 6189 / 200, [(3000, ⟨5963 / 20, 3000, [(3138 / 125, 0), (7531 / 1000000, 1)]⟩)]⟩)]⟩),
   ("Ni3S2", ⟨1201061 / 5000000,
    [("Salpha", ⟨-217986, 16736 / 125, [(3000, ⟨5963 / 20, 3000, [(51003 / 500, 0), (6707 / 100000, 1), (-386200, -2)]⟩)]⟩)]⟩),
   ("NiO", ⟨7469279999999999 / 100000000000000000,
    [("Salpha", ⟨-240580, 19037 / 500, [(3000, ⟨5963 / 20, 3000, [(-10439 / 500, 0), (31447 / 200000, 1), (1627600, -2)]⟩)]⟩)]⟩),
   ("NiS", ⟨453797 / 5000000,
    [("Salpha", ⟨-94140, 6616 / 125, [(3000, ⟨5963 / 20, 3000, [(10939 / 250, 0), (111 / 5000, 1), (-290400, -2)]⟩)]⟩)]⟩),
   ("O2", ⟨79997 / 2500000,
    [("G", ⟨0, 205037 / 1000, [(3000, ⟨5963 / 20, 3000, [(29957 / 1000, 0), (523 / 125000, 1), (-167400, -2)]⟩)]⟩)]⟩),
   ("Pb", ⟨259 / 1250,
    [("G", ⟨195602, 43817 / 250, [(3000, ⟨5963 / 20, 3000, [(834 / 125, 0), (2241 / 250000, 1)]⟩)]⟩),
     ("L", ⟨4289, 35859 / 500, [(3000, ⟨5963 / 20, 3000, [(16213 / 500, 0), (387 / 125000, 1)]⟩)]⟩),
     ("S", ⟨0, 324 / 5, [(3000, ⟨5963 / 20, 3000, [(5889 / 250, 0), (9749 / 1000000, 1)]⟩)]⟩)]⟩),
   ("PbO", ⟨1115997 / 5000000,
    [("L", ⟨-195443, 17193 / 200, [(3000, ⟨5963 / 20, 3000, [(65, 0)]⟩)]⟩),
     ("Sred", ⟨-219283, 6527 / 100, [(3000, ⟨5963 / 20, 3000, [(191 / 5, 0), (12761 / 500000, 1)]⟩)]⟩),
     ("Syellow", ⟨-217861, 33681 / 500, [(3000, ⟨5963 / 20, 3000, [(45089 / 1000, 0), (1223 / 100000, 1)]⟩)]⟩)]⟩),
   ("S", ⟨8016500000000001 / 250000000000000000,
    [("Smono", ⟨335, 3297 / 100, [(3000, ⟨5963 / 20, 3000, [(34177 / 500, 0), (-23709 / 200000, 1)]⟩)]⟩),
     ("Sortho", ⟨0, 16027 / 500, [(3000, ⟨5963 / 20, 3000, [(14811 / 1000, 0), (12029 / 500000, 1), (72800, -2)]⟩)]⟩)]⟩),
   ("S2", ⟨6413200000000001 / 100000000000000000,
    [("G", ⟨128490, 45611 / 200, [(3000, ⟨5963 / 20, 3000, [(7297 / 200, 0), (669 / 1000000, 1), (-376600, -2)]⟩)]⟩)]⟩),
   ("SO2", ⟨80081 / 1250000,
    [("G", ⟨-296810, 24811 / 100, [(3000, ⟨5963 / 20, 3000, [(4343 / 100, 0), (10627 / 1000000, 1), (-594100, -2)]⟩)]⟩)]⟩),
   ("SO3", ⟨400321 / 5000000,
    [("G", ⟨-395723, 32086 / 125, [(3000, ⟨5963 / 20, 3000, [(57321 / 1000, 0), (26861 / 1000000, 1), (-1305400, -2)]⟩)]⟩)]⟩),
   ("Sb", ⟨12176000000000001 / 100000000000000000,
    [("L", ⟨17481, 15673 / 250, [(3000, ⟨5963 / 20, 3000, [(1569 / 50, 0)]⟩)]⟩),
     ("S", ⟨0, 22761 / 500, [(3000, ⟨5963 / 20, 3000, [(11527 / 500, 0), (91 / 12500, 1)]⟩)]⟩)]⟩),
   ("Si", ⟨56171 / 2000000,
    [("L", ⟨48472, 44459 / 1000, [(3000, ⟨5963 / 20, 3000, [(6799 / 250, 0)]⟩)]⟩),
     ("S", ⟨0, 1881 / 100, [(3000, ⟨5963 / 20, 3000, [(23933 / 1000, 0), (2469 / 1000000, 1), (-414200, -2)]⟩)]⟩)]⟩),
   ("SiO2", ⟨600843 / 10000000,
    [("S", ⟨-910700, 2073 / 50, [(3000, ⟨5963 / 20, 3000, [(9389 / 200, 0), (34309 / 1000000, 1), (-1129700, -2)]⟩)]⟩)]⟩),
   ("Sn", ⟨11871 / 100000,
    [("L", ⟨6634, 6397 / 100, [(3000, ⟨5963 / 20, 3000, [(6937 / 200, 0), (-1841 / 200000, 1)]⟩)]⟩),
     ("Sgray", ⟨-1967, 44141 / 1000, [(3000, ⟨5963 / 20, 3000, []⟩)]⟩),
     ("Swhite", ⟨0, 12803 / 250, [(3000, ⟨5963 / 20, 3000, [(21589 / 1000, 0), (18159 / 1000000, 1)]⟩)]⟩)]⟩),
   ("SnO2", ⟨94193 / 625000,
    [("S", ⟨-580740, 523 / 10, [(3000, ⟨5963 / 20, 3000, [(73889 / 1000, 0), (5021 / 500000, 1), (-2158900, -2)]⟩)]⟩)]⟩),
   ("Ti", ⟨47867 / 1000000,
    [("Salpha", ⟨0, 30627 / 1000, [(3000, ⟨5963 / 20, 3000, [(5523 / 250, 0), (5021 / 500000, 1)]⟩)]⟩),
     ("Sbeta", ⟨6587, 1919 / 50, [(3000, ⟨5963 / 20, 3000, [(2479 / 125, 0), (159 / 20000, 1)]⟩)]⟩)]⟩),
   ("TiO2", ⟨7986579999999999 / 100000000000000000,
    [("Srutile", ⟨-944747, 25167 / 500, [(3000, ⟨5963 / 20, 3000, [(75187 / 1000, 0), (293 / 250000, 1), (-1820000, -2)]⟩)]⟩)]⟩),
   ("U", ⟨2380289 / 10000000,
    [("Salpha", ⟨0, 251 / 5, [(3000, ⟨5963 / 20, 3000, [(273 / 25, 0), (37447 / 1000000, 1), (489500, -2)]⟩)]⟩)]⟩),
   ("UO2", ⟨2700277 / 10000000,
    [("S", ⟨-1085000, 7703 / 100, [(3000, ⟨5963 / 20, 3000, [(80333 / 1000, 0), (3389 / 500000, 1), (-1656900, -2)]⟩)]⟩)]⟩),
   ("V", ⟨101883 / 2000000,
    [("S", ⟨0, 28953 / 1000, [(3000, ⟨5963 / 20, 3000, [(10251 / 500, 0), (2159 / 200000, 1), (83700, -2)]⟩)]⟩)]⟩),
   ("W", ⟨1149 / 6250,
    [("S", ⟨0, 6527 / 200, [(3000, ⟨5963 / 20, 3000, [(23807 / 1000, 0), (51 / 15625, 1)]⟩)]⟩)]⟩),
   ("Zn", ⟨6539 / 100000,
    [("G", ⟨130420, 1287 / 8, [(3000, ⟨5963 / 20, 3000, [(10393 / 500, 0)]⟩)]⟩),
     ("L", ⟨5693, 48519 / 1000, [(3000, ⟨5963 / 20, 3000, [(1569 / 50, 0)]⟩)]⟩),
     ("S", ⟨0, 4163 / 100, [(3000, ⟨5963 / 20, 3000, [(2798 / 125, 0), (5021 / 500000, 1)]⟩)]⟩)]⟩),
   ("ZnO", ⟨406947 / 5000000,
    [("S", ⟨-350640, 1091 / 25, [(3000, ⟨5963 / 20, 3000, [(48999 / 1000, 0), (1021 / 200000, 1), (-912100, -2)]⟩)]⟩)]⟩),
   ("ZnS", ⟨6091 / 62500,
    [("S", ⟨-205225, 7207 / 125, [(3000, ⟨5963 / 20, 3000, [(50877 / 1000, 0), (47 / 250, 1), (-569000, -2)]⟩)]⟩)]⟩),
   ("Zr", ⟨11403 / 125000,
    [("Salpha", ⟨0, 7799 / 200, [(3000, ⟨5963 / 20, 3000, [(10983 / 500, 0), (727 / 62500, 1)]⟩)]⟩)]⟩),
   ("ZrO2", ⟨12322280000000001 / 100000000000000000,
    [("S1", ⟨-1100810, 5071 / 100, [(3000, ⟨5963 / 20, 3000, [(34811 / 500, 0), (7531 / 1000000, 1), (-1405800, -2)]⟩)]⟩)]⟩)]

/-- The dictionary `compounds` after `load_data_auxi()` (`thermochemistry.py:744-760`), in some order. -/
noncomputable def shippedDb : List (Str × Compound) := shipped.map (fun c => (c.1.toList, c.2.compound))

end Auxi.ThermoChem
