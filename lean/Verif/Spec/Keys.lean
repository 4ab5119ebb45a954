import Verif.Keys

/-! # What a dictionary with objects as keys should be: a table from objects to values -/
namespace Auxi.Keys.Spec
open Auxi Auxi.Keys

variable {σ α : Type}

/-- What one step does to the table: the state of an object is no concern of it. -/
def table (t : ℕ → Option α) : Op σ α → ℕ → Option α
  | .set o v => Function.update t o (some v)
  | .del o => Function.update t o none
  | .change _ _ => t

/-- The table after a history. -/
def after (ops : List (Op σ α)) : ℕ → Option α := ops.foldl table (fun _ => none)

/-- In this history every object can always be printed, and no change of an object changes the hash of its text. -/
def Steady (hash : Str → ℤ) (text : σ → Res Str) : World σ → List (Op σ α) → Prop
  | w, [] => ∀ o, ∃ s, text (w o) = .ok s
  | w, .change o s :: ops => (∀ o, ∃ s, text (w o) = .ok s) ∧ (text s).map hash = (text (w o)).map hash ∧ Steady hash text (Function.update w o s) ops
  | w, _ :: ops => (∀ o, ∃ s, text (w o) = .ok s) ∧ Steady hash text w ops

/-- What the program sees of a dictionary: `d[o]` for every `o`, and the keys of the entries. -/
def Shows (hash : Str → ℤ) (text : σ → Res Str) (w : World σ) (d : List (Entry α)) (t : ℕ → Option α) : Prop :=
  (∀ o, get hash text w d o = match t o with
    | none => .error .keyError
    | some v => .ok v) ∧ (d.map (·.key)).Nodup ∧ ∀ o, o ∈ d.map (·.key) ↔ t o ≠ none

end Auxi.Keys.Spec
