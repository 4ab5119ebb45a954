import Verif.Spec.ArrHeap
import Verif.ThermoHeap

/-!
# Specification for C120: packages of `thermo.py` as values

What each statement should do to packages that share nothing, with the functions of `Verif.Thermo`, which know nothing of references.
-/
namespace Auxi.ThermoHeap.Spec
open Auxi Auxi.ArrHeap Auxi.ArrHeap.Spec Auxi.ThermoHeap
open Auxi.Thermo (V Db Material Package Arg)

/-- Materials and packages of `thermo.py` as values. -/
abbrev TStore := Store Info TX V

/-- The material at a position. -/
def mat (s : TStore) (m : Nat) : Option Material := match s.mats[m]? with
  | none => none
  | some e => some ⟨m, e.1.compounds, e.2, e.1.elements, e.1.customNames, e.1.custom⟩

/-- The package at a position. -/
def pkg (s : TStore) (i : Nat) : Option Package := match s.pkgs[i]? with
  | none => none
  | some (m, x, l) => match mat s m with
    | none => none
    | some M => some ⟨M, l, x.P, x.T, x.H, x.isCoal, x.HHV⟩

/-- An argument as a value. -/
def arg (s : TStore) : HArg → Option (Arg Package)
  | .pkg q => (pkg s q).map .pkg
  | .tup c b x => some (.tup c b x)
  | .tup3 c b x T => some (.tup3 c b x T)
  | .num b x => some (.num b x)
  | .str c => some (.str c)
  | .mat m => (mat s m).map .mat
  | .other => some .other

/-- A result that is a new package. -/
def result (s : TStore) : Res Package → Out × TStore
  | .error e => (.error e, s)
  | .ok r => (.ok (some s.pkgs.length), s.push r.mat.ident ⟨r.P, r.T, r.H, r.isCoal, r.HHV⟩ r.masses)

/-- A package has become another. -/
def become (s : TStore) (i : Nat) (P : Package) : TStore := s.update i P.mat.ident ⟨P.P, P.T, P.H, P.isCoal, P.HHV⟩ P.masses

/-- A package after a setter, which may have raised. -/
def setter (s : TStore) (i : Nat) : Res Unit × Package → Out × TStore
  | (.error e, P) => (.error e, become s i P)
  | (.ok _, P) => (.ok none, become s i P)

/-- What each statement should do; `none` for the statements about the caller's own arrays. -/
noncomputable def step (db : Db) (s : TStore) : Cmd → Option (Out × TStore)
  | .create m a mass P T n => some (match mat s m with
    | none => (.error .nameError, s)
    | some M => result s (M.createPackage db a mass P T n))
  | .clone p => some (match pkg s p with
    | none => (.error .nameError, s)
    | some P => result s (.ok P))
  | .plus p a => some (match pkg s p, arg s a with
    | some P, some A => result s (P.add db A)
    | _, _ => (.error .nameError, s))
  | .times p b k => some (match pkg s p with
    | none => (.error .nameError, s)
    | some P => result s (P.mul db b k))
  | .extract p a => some (match pkg s p, arg s a with
    | some P, some A => match P.extract db A with
      | (r, P') => result (become s p P') r
    | _, _ => (.error .nameError, s))
  | .clear p => some (match pkg s p with
    | none => (.error .nameError, s)
    | some P => (.ok none, become s p P.clear))
  | .setH p x => some (match pkg s p with
    | none => (.error .nameError, s)
    | some P => setter s p (P.setH db x))
  | .setT p x => some (match pkg s p with
    | none => (.error .nameError, s)
    | some P => setter s p (P.setT db x))
  | .setP p x => some (match pkg s p with
    | none => (.error .nameError, s)
    | some P => (.ok none, become s p (P.setP x)))
  | _ => none

/-- A program of package operations. -/
noncomputable def run (db : Db) (s : TStore) : List Cmd → Option (List Out × TStore)
  | [] => some ([], s)
  | c :: cs => match step db s c with
    | none => none
    | some (o, s) => match run db s cs with
      | none => none
      | some (os, s) => some (o :: os, s)

/-- Is the statement an operation on packages (not on the caller's own arrays)? -/
def IsOp : Cmd → Prop
  | .array _ | .setItem _ _ _ | .construct _ _ _ _ | .addAssay _ _ _ => False
  | _ => True

/-- The package that a statement may change. -/
def receiver : Cmd → Option Nat
  | .extract p _ | .clear p | .setH p _ | .setT p _ | .setP p _ => some p
  | _ => none

end Auxi.ThermoHeap.Spec
