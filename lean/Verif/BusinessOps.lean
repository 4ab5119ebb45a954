import Verif.RunState

/-!
# Building a business model: histories of calls that change the entity / component / activity tree

`/repo/auxi/modelling/business/{structure,models}.py`.  A Python reference to a component is modelled by the index of
its entity and the list of child indices leading to it; the empty list stands for the entity itself.
-/
namespace Auxi.Business
open Ledger Time

/-- Calling a mutating method of the component at a position below `c`; a dangling position changes nothing.
`/repo/auxi/modelling/business/structure.py:133,155,182`. -/
def Component.modAt (f : Component → Component) : List Nat → Component → Component
  | [], c => f c
  | i :: p, c => { c with components := c.components.modify i (Component.modAt f p) }

/-- The same from an entity. `/repo/auxi/modelling/business/structure.py:284`. -/
def Entity.modComp (f : Component → Component) (i : Nat) (p : List Nat) (e : Entity) : Entity :=
  { e with components := e.components.modify i (Component.modAt f p) }

/-- The component at a position, see `Component.modAt`. `/repo/auxi/modelling/business/structure.py:133`. -/
def Component.at? : List Nat → Component → Option Component
  | [], c => some c
  | i :: p, c => match c.components[i]? with
    | none => none
    | some d => d.at? p

/-- Position of the last entity with a name: `/repo/auxi/modelling/business/models.py:87-90`. -/
def lastEntity (name : Str) : List Entity → Option Nat
  | [] => none
  | e :: es => match lastEntity name es with
    | some i => some (i + 1)
    | none => if e.name = name then some 0 else none

/-- `/repo/auxi/modelling/business/models.py:80-92` `remove_entity` (removal by identity). -/
def Model.removeEntity (name : Str) (m : Model) : Model :=
  { m with entities := match lastEntity name m.entities with
      | some i => m.entities.eraseIdx i
      | none => m.entities }

/-- `/repo/auxi/modelling/business/models.py:38-50` `TimeBasedModel.__init__` (the start must be a `datetime`). -/
def Model.new (name : Str) (clock : Clock) (periodCount : Nat) : Model :=
  { name, clock, periodCount, entities := [] }

/-- Change of one entity. `/repo/auxi/modelling/business/models.py:49`. -/
def Model.modEntity (i : Nat) (f : Entity → Entity) (m : Model) : Model :=
  { m with entities := m.entities.modify i f }

/-- `add_activity` seen as an effect: when it raises nothing has been changed yet
(`/repo/auxi/modelling/business/structure.py:217-220`). -/
def Component.addActivity! (s : Structure) (a : Activity) (c : Component) : Component :=
  match c.addActivity s a with
  | .ok c' => c'
  | .error _ => c

/-- Public operations on a model, its entities, components and activities:
`/repo/auxi/modelling/business/models.py:61,65,80,103`, `/repo/auxi/modelling/business/structure.py:71,165,170,185,210,315,320,335`. -/
inductive Op
  | renameModel (name : Str)
  | createEntity (name : Str) (chart : Chart)
  | removeEntity (name : Str)
  | renameEntity (ent : Nat) (name : Str)
  | createTop (ent : Nat) (name : Str) (description : Option Str)
  | removeTop (ent : Nat) (name : Str)
  | createComponent (ent i : Nat) (pos : List Nat) (name : Str) (description : Option Str)
  | removeComponent (ent i : Nat) (pos : List Nat) (name : Str)
  | renameComponent (ent i : Nat) (pos : List Nat) (name : Str)
  | addActivity (ent i : Nat) (pos : List Nat) (a : Activity)
  | renameActivity (ent i : Nat) (pos : List Nat) (k : Nat) (name : Str)
  | run

/-- Effect of an operation, see `Op`. `/repo/auxi/modelling/business/models.py:61-112`,
`/repo/auxi/modelling/business/structure.py:71-220,315-347`. A run that raises leaves the model as `RunState.runModel` describes. -/
def Op.apply (m : Model) : Op → Model
  | .renameModel n => m.rename n
  | .createEntity n c => m.createEntity n c
  | .removeEntity n => m.removeEntity n
  | .renameEntity j n => m.modEntity j (Entity.rename n)
  | .createTop j n d => m.modEntity j (Entity.createComponent n d)
  | .removeTop j n => m.modEntity j (Entity.removeComponent n)
  | .createComponent j i p n d => m.modEntity j (Entity.modComp (Component.createComponent n d) i p)
  | .removeComponent j i p n => m.modEntity j (Entity.modComp (Component.removeComponent n) i p)
  | .renameComponent j i p n => m.modEntity j (Entity.modComp (Component.rename n) i p)
  | .addActivity j i p a => m.modEntity j (fun e => e.modComp (Component.addActivity! e.chart.str a) i p)
  | .renameActivity j i p k n => m.modEntity j
      (Entity.modComp (fun c => { c with activities := c.activities.modify k (Activity.rename n) }) i p)
  | .run => (RunState.runModel m).val

/-- A history on a model just constructed. `/repo/auxi/modelling/business/models.py:38-50`. -/
def runModelOps (name : Str) (clock : Clock) (n : Nat) (ops : List Op) : Model :=
  ops.foldl Op.apply (Model.new name clock n)

end Auxi.Business
