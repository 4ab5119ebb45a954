import Verif.ShippedThermo

/-! # Specification vocabulary for C104–C107: the substances in the default data -/
namespace Auxi.ThermoChem.Spec

/-- The text that names a substance, e.g. `Fe2O3[Shematite]`. -/
def text (formula phase : String) : Str := formula.toList ++ '[' :: phase.toList ++ [']']

/-- The default data contain this phase of this formula. -/
def Ships (formula phase : String) : Prop := ∃ c d, (formula, c) ∈ shipped ∧ (phase, d) ∈ c.phases

/-- The module's dictionary holds the default data, read in any order of the files. -/
def Loaded (db : List (Str × Compound)) : Prop := db.Perm shippedDb

/-- The two substances whose heat capacity is not positive in the default data. -/
def odd : List Str := [text "S" "Smono", text "Sn" "Sgray"]

end Auxi.ThermoChem.Spec
