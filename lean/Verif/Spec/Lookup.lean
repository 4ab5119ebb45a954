import Verif.Basic

/-!
# What stands under a name after a history of creations and removals

Under every name stands a pile.  A creation puts a thing on top of the pile of its name, a removal takes the top of the pile of the name away; a removal of a name whose pile is empty does nothing.
Looking a name up gives what lies at the bottom of its pile.
-/
namespace Auxi.Business.Spec

/-- A creation (of something under a name) or a removal by name. -/
inductive Step (δ : Type)
  | create (name : Str) (d : δ)
  | remove (name : Str)

/-- The pile under the name `n`, bottom first, after one more step. -/
def pileStep {δ : Type} (n : Str) (pile : List δ) : Step δ → List δ
  | .create k d => if k = n then pile ++ [d] else pile
  | .remove k => if k = n then pile.dropLast else pile

/-- The pile under the name `n` after a history. -/
def pileAfter {δ : Type} (n : Str) (pile : List δ) (steps : List (Step δ)) : List δ := steps.foldl (pileStep n) pile

/-- What looking up gives: the bottom of the pile, or `IndexError`. -/
def found {δ : Type} : List δ → Res δ
  | [] => .error .indexError
  | d :: _ => .ok d

end Auxi.Business.Spec
