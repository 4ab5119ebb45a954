import Verif.Psd

/-!
# Model of `/repo/auxi/modelling/process/materials/slurry.py`

A slurry material is a psd material whose assays also carry a solid density and a water fraction; a package also carries a solid density and a
mass of water.  The parts of `slurry.py` whose text repeats that of `psd.py` (size class lookup, assay totals, the handling of the size class
masses) reuse the definitions of `Verif.Psd`.
-/
namespace Auxi.Slurry
open Psd (F64 Arg AssayArg)

/-- `slurry.Material` (`slurry.py:27-138`). -/
structure Material where
  /-- `size_classes`, `assays` -/
  psd : Psd.Material
  /-- `self.solid_densities` -/
  densities : List (Str × ℚ)
  /-- `self.H2O_fractions` -/
  waters : List (Str × ℚ)
  deriving DecidableEq, Repr

/-- `d[k] = v` on a dict (`slurry.py:241,245`). -/
def dictSet (k : Str) (v : ℚ) : List (Str × ℚ) → List (Str × ℚ)
  | [] => [(k, v)]
  | (k', w) :: d => if k' = k then (k', v) :: d else (k', w) :: dictSet k v d

/-- `Material.add_assay` (`slurry.py:230-256`): outcome and material afterwards.  `none` stands for an argument that is not a `float`.  The
density and the water fraction are stored before the other arguments are checked. -/
def Material.addAssay (m : Material) (name : Str) (density water : Option ℚ) (a : AssayArg) : Res Unit × Material :=
  match density with
  | none => (.error .exception, m)
  | some d =>
    let m1 := { m with densities := dictSet name d m.densities }
    match water with
    | none => (.error .exception, m1)
    | some w =>
      let m2 := { m1 with waters := dictSet name w m.waters }
      match m.psd.addAssay name a with
      | (.error e, _) => (.error e, m2)
      | (.ok (), p) => (.ok (), { m2 with psd := p })

/-- `slurry.MaterialPackage` (`slurry.py:312-334`). -/
structure Package where
  /-- `self.material` -/
  mat : Material
  /-- `self.solid_density` -/
  density : F64
  /-- `self.H2O_mass` -/
  water : F64
  /-- `self.size_class_masses` -/
  masses : List F64
  deriving DecidableEq, Repr

/-- The size class masses of a package, seen as a psd package (the code of `slurry.py` repeats that of `psd.py`). -/
def Package.solids (p : Package) : Psd.Package := ⟨p.mat.psd, p.masses⟩

/-- `d[k]` on a dict of floats (`slurry.py:303,306`). -/
def dictGet (d : List (Str × ℚ)) (k : Str) : Res ℚ :=
  match d.lookup k with
  | some v => .ok v
  | none => .error .keyError

/-- `Material.create_package` (`slurry.py:281-309`): a zero total is replaced by one. -/
def Material.createPackage (m : Material) (assay : Option Str) (mass : F64) (normalise : Bool) : Res Package :=
  match assay with
  | none => .ok ⟨m, .fin 1, .fin 0, List.replicate m.psd.classes.length (.fin 0)⟩
  | some name =>
    let total : Res F64 :=
      if normalise then (m.psd.assayTotal name).map (fun t => if t = .fin 0 then .fin 1 else t) else .ok (.fin 1)
    match total with
    | .error e => .error e
    | .ok t => match dictGet m.waters name with
      | .error e => .error e
      | .ok w => match dictGet m.densities name with
        | .error e => .error e
        | .ok d => match m.psd.assay name with
          | .error e => .error e
          | .ok l =>
            let h := mass.mul (.fin w)
            let s := mass.sub h
            .ok ⟨m, .fin d, h, l.map (fun x => (s.mul x).div t)⟩

/-- `MaterialPackage.get_solid_mass` (`slurry.py:549-556`). -/
def Package.solidMass (p : Package) : F64 := Psd.sum p.masses

/-- `MaterialPackage.get_mass` (`slurry.py:540-547`). -/
def Package.mass (p : Package) : F64 := (Psd.sum p.masses).add p.water

/-- `MaterialPackage.get_assay` (`slurry.py:531-538`). -/
def Package.assay (p : Package) : List F64 := p.masses.map (fun x => x.div (Psd.sum p.masses))

/-- `MaterialPackage.get_size_class_mass` (`slurry.py:558-569`). -/
def Package.classMass (p : Package) (c : ℚ) : Res F64 := p.solids.classMass c

/-- `MaterialPackage.get_size_class_mass_fraction` (`slurry.py:572-582`). -/
def Package.classFraction (p : Package) (c : ℚ) : Res F64 :=
  match p.classMass c with
  | .error e => .error e
  | .ok x => .ok (x.div p.solidMass)

/-- `MaterialPackage.get_volume` (`slurry.py:598-603`), in units where the density of water is 1. -/
def Package.volume (p : Package) : F64 := (p.water.div (.fin 1)).add (p.solidMass.div p.density)

/-- `MaterialPackage.get_density` (`slurry.py:584-589`). -/
def Package.slurryDensity (p : Package) : F64 := p.mass.div p.volume

/-- `MaterialPackage.get_mass_fraction_solids` (`slurry.py:591-596`). -/
def Package.massFractionSolids (p : Package) : F64 := p.solidMass.div p.mass

/-- `MaterialPackage.get_volume_fraction_solids` (`slurry.py:605-610`). -/
def Package.volumeFractionSolids (p : Package) : F64 := (F64.fin 1).sub ((p.water.div (.fin 1)).div p.volume)

/-- Replace the size class masses. -/
def Package.withSolids (p : Package) (s : Psd.Package) : Package := { p with masses := s.masses }

/-- `MaterialPackage.__add__` (`slurry.py:361-432`).  A tuple whose first element is *any* string and whose second is a float is taken for
water (`_is_H2O_mass_tuple`, `slurry.py:487-508`). -/
def Package.add (p : Package) (a : Arg Package) : Res Package :=
  match a with
  | .pkg q =>
    let ms := p.solidMass
    let mo := q.solidMass
    let d := (ms.add mo).div ((ms.div p.density).add (mo.div q.density))
    let h := p.water.add q.water
    match p.solids.add (.pkg q.solids) with
    | .error e => .error e
    | .ok s => .ok ⟨p.mat, d, h, s.masses⟩
  | .strTup _ b x => if b then .ok { p with water := p.water.add x } else .error .typeError
  | .tup c b x => match p.solids.add (.tup c b x) with
    | .error e => .error e
    | .ok s => .ok (p.withSolids s)
  | _ => .error .typeError

/-- `MaterialPackage.__mul__` (`slurry.py:434-462`). -/
def Package.mul (p : Package) (isFloat : Bool) (k : F64) : Res Package :=
  if isFloat then
    if (F64.fin 0).gt k then .error .exception else .ok ⟨p.mat, p.density, p.water.mul k, p.masses.map (·.mul k)⟩
  else .error .typeError

/-- `MaterialPackage.clear` (`slurry.py:521-529`). -/
def Package.clear (p : Package) : Package := ⟨p.mat, .fin 1, .fin 0, p.masses.map (·.mul (.fin 0))⟩

/-- `MaterialPackage.extract` (`slurry.py:612-692`): the extracted package or the error, and the package afterwards. -/
def Package.extract (p : Package) (a : Arg Package) : Res Package × Package :=
  match a with
  | .num b x =>
    if b then
      if x.gt p.mass then (.error .exception, p)
      else
        let f := x.div p.mass
        let g := (F64.fin 1).sub f
        (.ok ⟨p.mat, p.density, p.water.mul f, p.masses.map (·.mul f)⟩, ⟨p.mat, p.density, p.water.mul g, p.masses.map (·.mul g)⟩)
    else (.error .typeError, p)
  | .strTup _ b x =>
    if b then
      if x.gt p.water then (.error .exception, p)
      else (.ok ⟨p.mat, p.density, x, p.masses.map (·.mul (.fin 0))⟩, { p with water := p.water.sub x })
    else (.error .typeError, p)
  | .tup c b x => match p.solids.extract (.tup c b x) with
    | (.error e, s) => (.error e, p.withSolids s)
    | (.ok r, s) => (.ok ⟨p.mat, p.density, .fin 0, r.masses⟩, p.withSolids s)
  | .str v => match p.solids.extract (.str v) with
    | (.error e, s) => (.error e, p.withSolids s)
    | (.ok r, s) => (.ok ⟨p.mat, p.density, p.water.mul (.fin 0), r.masses⟩, p.withSolids s)
  | _ => (.error .typeError, p)

end Auxi.Slurry
