import Verif.ThermoStream

/-!
# Model of `/repo/auxi/modelling/process/materials/thermo.py`: the lists of amounts (897-911, 1642-1653)
-/
namespace Auxi.Thermo

/-- The loop `for compound in self.material.compounds: index = …; result[index] = stoich.amount(compound, result[index])`
(`thermo.py:908-911,1650-1653`). -/
noncomputable def amountsLoop (m : Material) : List Str → List V → Res (List V)
  | [], acc => .ok acc
  | c :: cs, acc => match m.index c with
    | .error e => .error e
    | .ok i => match acc[i]? with
      | none => .error .indexError
      | some x => match amountOf c x with
        | .error e => .error e
        | .ok n => amountsLoop m cs (acc.set i n)

/-- `MaterialPackage.get_compound_amounts` (`thermo.py:897-911`). -/
noncomputable def Package.compoundAmounts (p : Package) : Res (List V) := amountsLoop p.mat p.mat.compounds p.masses

/-- `MaterialStream.get_compound_afrs` (`thermo.py:1642-1653`). -/
noncomputable def Stream.compoundAfrs (s : Stream) : Res (List V) := amountsLoop s.mat s.mat.compounds s.mfrs

end Auxi.Thermo
