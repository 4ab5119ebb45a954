import Verif.Spec.ArrHeap
import Verif.StreamHeap

/-!
# Specification for C121: streams of `thermo.py` as values

What each statement should do to streams that share nothing, with the functions of `Verif.ThermoStream`, which know nothing of references.
-/
namespace Auxi.StreamHeap.Spec
open Auxi Auxi.ArrHeap Auxi.ArrHeap.Spec Auxi.StreamHeap
open Auxi.Thermo (V Db Material Stream Arg)
open Auxi.ThermoHeap (Info)

/-- Materials and streams of `thermo.py` as values. -/
abbrev SStore := Store Info SX V

/-- The material at a position. -/
def mat (s : SStore) (m : Nat) : Option Material := match s.mats[m]? with
  | none => none
  | some e => some ⟨m, e.1.compounds, e.2, e.1.elements, e.1.customNames, e.1.custom⟩

/-- The stream at a position. -/
def pkg (s : SStore) (i : Nat) : Option Stream := match s.pkgs[i]? with
  | none => none
  | some (m, x, l) => match mat s m with
    | none => none
    | some M => some ⟨M, l, x.P, x.T, x.Hfr, x.isCoal, x.HHV, x.DH298⟩

/-- An argument as a value. -/
def arg (s : SStore) : HArg → Option (Arg Stream)
  | .pkg q => (pkg s q).map .pkg
  | .tup c b x => some (.tup c b x)
  | .tup3 c b x T => some (.tup3 c b x T)
  | .num b x => some (.num b x)
  | .str c => some (.str c)
  | .mat m => (mat s m).map .mat
  | .other => some .other

/-- A result that is a new stream. -/
def result (s : SStore) : Res Stream → Out × SStore
  | .error e => (.error e, s)
  | .ok r => (.ok (some s.pkgs.length), s.push r.mat.ident ⟨r.P, r.T, r.Hfr, r.isCoal, r.HHV, r.DH298⟩ r.mfrs)

/-- A stream has become another. -/
def become (s : SStore) (i : Nat) (P : Stream) : SStore := s.update i P.mat.ident ⟨P.P, P.T, P.Hfr, P.isCoal, P.HHV, P.DH298⟩ P.mfrs

/-- A stream after a setter, which may have raised. -/
def setter (s : SStore) (i : Nat) : Res Unit × Stream → Out × SStore
  | (.error e, P) => (.error e, become s i P)
  | (.ok _, P) => (.ok none, become s i P)

/-- What each statement should do; `none` for the statements about the caller's own arrays. -/
noncomputable def step (db : Db) (s : SStore) : Cmd → Option (Out × SStore)
  | .create m a mass P T n => some (match mat s m with
    | none => (.error .nameError, s)
    | some M => result s (M.createStream db a mass P T n))
  | .clone p => some (match pkg s p with
    | none => (.error .nameError, s)
    | some P => result s (.ok P))
  | .plus p a => some (match pkg s p, arg s a with
    | some P, some A => result s (P.add db A)
    | _, _ => (.error .nameError, s))
  | .times p b k => some (match pkg s p with
    | none => (.error .nameError, s)
    | some P => result s (P.mul db b k))
  | .extract p a => some (match pkg s p, arg s a with
    | some P, some A => match P.extract db A with
      | (r, P') => result (become s p P') r
    | _, _ => (.error .nameError, s))
  | .clear p => some (match pkg s p with
    | none => (.error .nameError, s)
    | some P => (.ok none, become s p P.clear))
  | .setHfr p x => some (match pkg s p with
    | none => (.error .nameError, s)
    | some P => setter s p (P.setHfr db x))
  | .setT p x => some (match pkg s p with
    | none => (.error .nameError, s)
    | some P => setter s p (P.setT db x))
  | .setHHV p x => some (match pkg s p with
    | none => (.error .nameError, s)
    | some P => setter s p (P.setHHV db x))
  | .setP p x => some (match pkg s p with
    | none => (.error .nameError, s)
    | some P => (.ok none, become s p (P.setP x)))
  | _ => none

/-- A program of stream operations. -/
noncomputable def run (db : Db) (s : SStore) : List Cmd → Option (List Out × SStore)
  | [] => some ([], s)
  | c :: cs => match step db s c with
    | none => none
    | some (o, s) => match run db s cs with
      | none => none
      | some (os, s) => some (o :: os, s)

/-- Is the statement an operation on streams (not on the caller's own arrays)? -/
def IsOp : Cmd → Prop
  | .array _ | .setItem _ _ _ | .construct _ _ _ _ _ _ | .addAssay _ _ _ => False
  | _ => True

/-- The stream that a statement may change. -/
def receiver : Cmd → Option Nat
  | .extract p _ | .clear p | .setHfr p _ | .setT p _ | .setHHV p _ | .setP p _ => some p
  | _ => none

end Auxi.StreamHeap.Spec
