import Verif.Basic

/-!
# `/repo/auxi/modelling/core.py` and `/repo/auxi/modelling/process/core.py`: projects, variables, variable groups and process models

What matters is which `__init__` runs and what attributes it leaves: `super` is modelled as Python's, on the class hierarchy of these modules.
-/
namespace Auxi.Modelling
open Auxi

/-- The classes of `/repo/auxi/modelling/core.py:20-61`, `/repo/auxi/modelling/process/core.py:20-79` and their bases in `/repo/auxi/core/objects.py:17-62`. -/
inductive Cls
  | builtin | object | namedObject | project | variable | variableGroup | model | steadyState | dynamic
  deriving DecidableEq, Repr

/-- The method resolution order of a class (all of them have one base): `/repo/auxi/core/objects.py:17,47`, `/repo/auxi/modelling/core.py:20,32,51`, `/repo/auxi/modelling/process/core.py:20,57,70`. -/
def mro : Cls → List Cls
  | .builtin => [.builtin]
  | .object => [.object, .builtin]
  | .namedObject => [.namedObject, .object, .builtin]
  | .project => [.project, .namedObject, .object, .builtin]
  | .variable => [.variable, .namedObject, .object, .builtin]
  | .variableGroup => [.variableGroup, .namedObject, .object, .builtin]
  | .model => [.model, .namedObject, .object, .builtin]
  | .steadyState => [.steadyState, .model, .namedObject, .object, .builtin]
  | .dynamic => [.dynamic, .model, .namedObject, .object, .builtin]

/-- `super(c, self)` for an object of class `k` (`/repo/auxi/modelling/core.py:42,61`; `super()` is `super` of the class whose method it stands in): what comes after `c` in the resolution order of `k`; `TypeError` when the object is no instance of `c`. -/
def superOf (c k : Cls) : Res (List Cls) :=
  if c ∈ mro k then .ok (((mro k).dropWhile (fun x => x ≠ c)).drop 1) else .error .typeError

/-- The value of an attribute: `None`, what the caller gave, or an empty object of one of the nested classes (`/repo/auxi/modelling/process/core.py:31-33`). -/
inductive Val (α : Type)
  | none
  | given (a : α)
  | part (which : Str)
  deriving DecidableEq, Repr

/-- The attributes of an object, in the order in which they were set (`/repo/auxi/core/objects.py:59-60`). -/
abbrev Attrs (α : Type) := List (Str × Val α)

/-- `self.name = value` for an attribute that is not there yet, or is (`/repo/auxi/core/objects.py:59-60`). -/
def setAttr {α : Type} (o : Attrs α) (n : Str) (v : Val α) : Attrs α :=
  if n ∈ o.map (·.1) then o.map (fun e => if e.1 = n then (n, v) else e) else o ++ [(n, v)]

/-- `NamedObject.__init__` (`/repo/auxi/core/objects.py:58-60`). -/
def namedInit {α : Type} (o : Attrs α) (name description : Val α) : Attrs α := setAttr (setAttr o "name".toList name) "description".toList description

/-- `Model.__init__` after `super().__init__` (`/repo/auxi/modelling/process/core.py:31-33`). -/
def modelParts {α : Type} (o : Attrs α) : Attrs α :=
  setAttr (setAttr (setAttr o "parameters".toList (.part "Parameters".toList)) "input_variables".toList (.part "InputVariables".toList)) "output_variables".toList (.part "OutputVariables".toList)

/-- `super(c, self).__init__(name, description)` for an object of class `k`: the first class after `c` that defines `__init__` runs its own (`/repo/auxi/modelling/core.py:29,42,61`, `/repo/auxi/modelling/process/core.py:29,66,79`). -/
def superInit {α : Type} (c k : Cls) (o : Attrs α) (name description : Val α) : Res (Attrs α) :=
  match superOf c k with
  | .error e => .error e
  | .ok [] => .error .typeError
  | .ok (.namedObject :: _) => .ok (namedInit o name description)
  | .ok (.model :: rest) =>
    -- `Model.__init__` calls `super().__init__` again, now after `Model`
    match rest with
    | .namedObject :: _ => .ok (modelParts (namedInit o name description))
    | _ => .error .typeError
  | .ok (_ :: _) => .error .typeError

/-- `Project(name, description)` (`/repo/auxi/modelling/core.py:27-28`). -/
def newProject {α : Type} (name description : Val α) : Res (Attrs α) := superInit .project .project [] name description

/-- `Variable(name, value, units, category, description)` (`/repo/auxi/modelling/core.py:40-45`). -/
def newVariable {α : Type} (name value units category description : Val α) : Res (Attrs α) := do
  let o ← superInit .variable .variable [] name description
  return setAttr (setAttr (setAttr o "category".toList category) "value".toList value) "units".toList units

/-- `VariableGroup(name, value, units, category, description)` (`/repo/auxi/modelling/core.py:59-61`). -/
def newVariableGroup {α : Type} (name _value _units _category description : Val α) : Res (Attrs α) := superInit .variable .variableGroup [] name description

/-- `Model(name, description)` (`/repo/auxi/modelling/process/core.py:28-33`). -/
def newModel {α : Type} (name description : Val α) : Res (Attrs α) := do
  let o ← superInit .model .model [] name description
  return modelParts o

/-- `SteadyStateModel(name, description)` (`/repo/auxi/modelling/process/core.py:65-66`). -/
def newSteadyState {α : Type} (name description : Val α) : Res (Attrs α) := superInit .steadyState .steadyState [] name description

/-- `DynamicModel(name, description)` (`/repo/auxi/modelling/process/core.py:78-79`). -/
def newDynamic {α : Type} (name description : Val α) : Res (Attrs α) := superInit .dynamic .dynamic [] name description

/-- `variable()` (`/repo/auxi/modelling/core.py:47-48`): the attribute `value`, or `AttributeError`. -/
def callVariable {α : Type} (o : Attrs α) : Res (Val α) :=
  match o.lookup "value".toList with
  | some v => .ok v
  | none => .error .attributeError

end Auxi.Modelling
