import Verif.BusinessOps

/-!
# Finding entities, components and activities by name

`[x for x in xs if x.name == name][0]`: the first of that name, `IndexError` if there is none.
-/
namespace Auxi.Business
open Ledger

/-- `[x for x in xs if x.name == name][0]` (`/repo/auxi/modelling/business/structure.py:208,231,293`, `/repo/auxi/modelling/business/models.py:115`). -/
def firstNamed {α : Type} (nm : α → Str) (name : Str) (xs : List α) : Res α :=
  match xs.filter (fun x => nm x = name) with
  | [] => .error .indexError
  | x :: _ => .ok x

/-- `/repo/auxi/modelling/business/structure.py:199-208` `Component.get_component`. -/
def Component.getComponent (name : Str) (c : Component) : Res Component := firstNamed Component.name name c.components

/-- `/repo/auxi/modelling/business/structure.py:222-231` `Component.get_activity`. -/
def Component.getActivity (name : Str) (c : Component) : Res Activity := firstNamed Activity.name name c.activities

/-- `/repo/auxi/modelling/business/structure.py:292-293` `Entity.__getitem__`. -/
def Entity.getItem (name : Str) (e : Entity) : Res Component := firstNamed Component.name name e.components

/-- `/repo/auxi/modelling/business/models.py:114-115` `TimeBasedModel.__getitem__`. -/
def Model.getItem (name : Str) (m : Model) : Res Entity := firstNamed Entity.name name m.entities

end Auxi.Business
