import Verif.BusinessOps

/-!
# Specification vocabulary for the component tree
-/
namespace Auxi.Business.Spec
open Auxi.Business

/-- The names met on the way from a list of components to a position, and the component there. -/
def namesTo (l : List Component) : List Nat → Option (List Str × Component)
  | [] => none
  | [i] => l[i]?.map (fun c => ([c.name], c))
  | i :: j :: p => match l[i]? with
    | none => none
    | some c => (namesTo c.components (j :: p)).map (fun r => (c.name :: r.1, r.2))

/-- Each name preceded by a slash: `/A/B/C`. -/
def slashed (names : List Str) : Str := names.flatMap (fun n => '/' :: n)

/-- The operation neither creates an entity nor renames the model. -/
def KeepsEntities : Op → Prop
  | .renameModel _ => False
  | .createEntity _ _ => False
  | _ => True

end Auxi.Business.Spec
