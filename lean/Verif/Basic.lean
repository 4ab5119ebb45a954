/-!
# Shared vocabulary of the model

Python values that recur in all modules: strings, exceptions.
-/

namespace Auxi

/-- A Python `str` is a sequence of Unicode code points.
(Representation used everywhere in place of the `str` arguments of `/repo/auxi/**/*.py`.) -/
abbrev Str := List Char

/-- The Python exception classes raised, explicitly or by the interpreter, in the modelled code:
`/repo/auxi/modelling/financial/des.py:59,338`, `/repo/auxi/modelling/process/materials/chem.py`
(`Exception`, `TypeError`, `ValueError`, `ZeroDivisionError`), etc.  Messages are not modelled. -/
inductive PyErr
  | valueError | typeError | indexError | keyError | zeroDivisionError | attributeError
  | nameError | exception | parseError | unboundLocal | overflowError
  deriving DecidableEq, Repr

/-- Outcome of a call: a value or the exception raised
(simplification: messages and tracebacks dropped; e.g. `/repo/auxi/modelling/financial/des.py:336-339`). -/
abbrev Res (α : Type) := Except PyErr α

deriving instance DecidableEq for Except

end Auxi
