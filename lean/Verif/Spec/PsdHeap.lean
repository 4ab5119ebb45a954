import Verif.Spec.ArrHeap
import Verif.SlurryHeap

/-!
# Specification for C119: psd and slurry packages as values

What each statement should do to packages that share nothing, with the functions of `Verif.Psd` and `Verif.Slurry`, which know nothing of references.
-/
namespace Auxi.PsdHeap.Spec
open Auxi Auxi.ArrHeap Auxi.ArrHeap.Spec Auxi.PsdHeap Auxi.Psd

/-- Materials and packages of `psd.py` as values. -/
abbrev PStore := Store (List ℚ) Unit F64

/-- The material at a position. -/
def mat (s : PStore) (m : Nat) : Option Material := match s.mats[m]? with
  | none => none
  | some e => some ⟨m, e.1, e.2⟩

/-- The package at a position. -/
def pkg (s : PStore) (i : Nat) : Option Package := match s.pkgs[i]? with
  | none => none
  | some (m, _, l) => match mat s m with
    | none => none
    | some M => some ⟨M, l⟩

/-- An argument as a value. -/
def arg (s : PStore) : HArg → Option (Arg Package)
  | .pkg q => (pkg s q).map .pkg
  | .tup c b x => some (.tup c b x)
  | .strTup c b x => some (.strTup c b x)
  | .num b x => some (.num b x)
  | .str v => some (.str v)
  | .other => some .other

/-- A result that is a new package. -/
def result (s : PStore) : Res Package → Out × PStore
  | .error e => (.error e, s)
  | .ok r => (.ok (some s.pkgs.length), s.push r.mat.ident () r.masses)

/-- A package has become another. -/
def become (s : PStore) (i : Nat) (P : Package) : PStore := s.update i P.mat.ident () P.masses

/-- What each statement should do; `none` for the statements about the caller's own arrays. -/
def step (s : PStore) : Cmd → Option (Out × PStore)
  | .create m a mass n => some (match mat s m with
    | none => (.error .nameError, s)
    | some M => result s (M.createPackage a mass n))
  | .clone p => some (match pkg s p with
    | none => (.error .nameError, s)
    | some P => result s (.ok P))
  | .plus p a => some (match pkg s p, arg s a with
    | some P, some A => result s (P.add A)
    | _, _ => (.error .nameError, s))
  | .times p b k => some (match pkg s p with
    | none => (.error .nameError, s)
    | some P => result s (P.mul b k))
  | .addTo p a => some (match pkg s p, arg s a with
    | some P, some A => match P.addTo A with
      | (.ok _, P') => (.ok none, become s p P')
      | (.error e, P') => (.error e, become s p P')
    | _, _ => (.error .nameError, s))
  | .extract p a => some (match pkg s p, arg s a with
    | some P, some A => match P.extract A with
      | (r, P') => result (become s p P') r
    | _, _ => (.error .nameError, s))
  | .clear p => some (match pkg s p with
    | none => (.error .nameError, s)
    | some P => (.ok none, become s p P.clear))
  | _ => none

/-- A program of package operations. -/
def run (s : PStore) : List Cmd → Option (List Out × PStore)
  | [] => some ([], s)
  | c :: cs => match step s c with
    | none => none
    | some (o, s) => match run s cs with
      | none => none
      | some (os, s) => some (o :: os, s)

/-- Is the statement an operation on packages (not on the caller's own arrays)? -/
def IsOp : Cmd → Prop
  | .array _ | .setItem _ _ _ | .construct _ _ | .addAssay _ _ _ => False
  | _ => True

/-- The package that a statement may change. -/
def receiver : Cmd → Option Nat
  | .addTo p _ | .extract p _ | .clear p => some p
  | _ => none

end Auxi.PsdHeap.Spec

namespace Auxi.SlurryHeap.Spec
open Auxi Auxi.ArrHeap Auxi.ArrHeap.Spec Auxi.SlurryHeap Auxi.Slurry
open Auxi.Psd (F64 Arg)

/-- Materials and packages of `slurry.py` as values. -/
abbrev SStore := Store Info (F64 × F64) F64

/-- The material at a position. -/
def mat (s : SStore) (m : Nat) : Option Material := match s.mats[m]? with
  | none => none
  | some e => some ⟨⟨m, e.1.classes, e.2⟩, e.1.densities, e.1.waters⟩

/-- The package at a position. -/
def pkg (s : SStore) (i : Nat) : Option Package := match s.pkgs[i]? with
  | none => none
  | some (m, x, l) => match mat s m with
    | none => none
    | some M => some ⟨M, x.1, x.2, l⟩

/-- An argument as a value. -/
def arg (s : SStore) : PsdHeap.HArg → Option (Arg Package)
  | .pkg q => (pkg s q).map .pkg
  | .tup c b x => some (.tup c b x)
  | .strTup c b x => some (.strTup c b x)
  | .num b x => some (.num b x)
  | .str v => some (.str v)
  | .other => some .other

/-- A result that is a new package. -/
def result (s : SStore) : Res Package → Out × SStore
  | .error e => (.error e, s)
  | .ok r => (.ok (some s.pkgs.length), s.push r.mat.psd.ident (r.density, r.water) r.masses)

/-- A package has become another. -/
def become (s : SStore) (i : Nat) (P : Package) : SStore := s.update i P.mat.psd.ident (P.density, P.water) P.masses

/-- What each statement should do; `none` for the statements about the caller's own arrays. -/
def step (s : SStore) : Cmd → Option (Out × SStore)
  | .create m a mass n => some (match mat s m with
    | none => (.error .nameError, s)
    | some M => result s (M.createPackage a mass n))
  | .clone p => some (match pkg s p with
    | none => (.error .nameError, s)
    | some P => result s (.ok P))
  | .plus p a => some (match pkg s p, arg s a with
    | some P, some A => result s (P.add A)
    | _, _ => (.error .nameError, s))
  | .times p b k => some (match pkg s p with
    | none => (.error .nameError, s)
    | some P => result s (P.mul b k))
  | .extract p a => some (match pkg s p, arg s a with
    | some P, some A => match P.extract A with
      | (r, P') => result (become s p P') r
    | _, _ => (.error .nameError, s))
  | .clear p => some (match pkg s p with
    | none => (.error .nameError, s)
    | some P => (.ok none, become s p P.clear))
  | _ => none

/-- A program of package operations. -/
def run (s : SStore) : List Cmd → Option (List Out × SStore)
  | [] => some ([], s)
  | c :: cs => match step s c with
    | none => none
    | some (o, s) => match run s cs with
      | none => none
      | some (os, s) => some (o :: os, s)

/-- Is the statement an operation on packages (not on the caller's own arrays)? -/
def IsOp : Cmd → Prop
  | .array _ | .setItem _ _ _ | .construct _ _ _ _ | .addAssay _ _ _ _ _ => False
  | _ => True

/-- The package that a statement may change. -/
def receiver : Cmd → Option Nat
  | .extract p _ | .clear p => some p
  | _ => none

end Auxi.SlurryHeap.Spec
