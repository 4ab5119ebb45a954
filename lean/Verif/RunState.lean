import Verif.Business

/-!
# Runs that raise, and the end of the calendar

`Verif.Business` describes a run by its outcome and computes dates in an unbounded calendar.  This module describes the
same methods in more detail: what every object looks like when an exception leaves the method, and the exceptions that
date arithmetic raises outside the years 1 to 9999 (`datetime.min` to `datetime.max`).
-/
namespace Auxi.RunState
open Business Time Calendar Ledger

/-- What a call that changes an object leaves behind: the object, and the exception if one left the call
(e.g. `/repo/auxi/modelling/business/models.py:103-112`). -/
structure Out (α : Type) where
  val : α
  err : Option PyErr

/-- A `datetime` lies between `datetime.min` and `datetime.max` (`/repo/auxi/core/time.py:88-103` raise otherwise). -/
def inCalendar (t : Int) : Bool := decide (dtMin ≤ t) && decide (t ≤ dtMax)

/-- `/repo/auxi/core/time.py:79-103` `get_datetime_at_period_ix`: `timedelta` addition (also that of
`relativedelta(days=...)`) raises `OverflowError`, `relativedelta` of months and years raises `ValueError`
(simplification: also for years that do not fit a C int). -/
def dateAt (clk : Clock) (ix : Int) : Res Int :=
  if inCalendar (clk.atIx ix) then .ok (clk.atIx ix)
  else .error (match clk.duration with | .month | .year => .valueError | _ => .overflowError)

/-- `t + relativedelta(years=1)` (`/repo/auxi/modelling/business/structure.py:363-364,400`). -/
def plusYear (t : Int) : Res Int := if inCalendar (addYears t 1) then .ok (addYears t 1) else .error .valueError

/-- `t + timedelta(seconds=-1)` (`/repo/auxi/modelling/business/structure.py:396-397`). -/
def minusSecond (t : Int) : Res Int :=
  if inCalendar (t - 1000000) then .ok (t - 1000000) else .error .overflowError

/-- A loop that calls a method on every object of a list and is left by the first exception
(`/repo/auxi/modelling/business/models.py:100-101,110-111`, `/repo/auxi/modelling/business/structure.py:243-246`). -/
def each {α : Type} (f : α → Out α) : List α → Out (List α)
  | [] => ⟨[], none⟩
  | a :: as => match f a with
    | ⟨a', some e⟩ => ⟨a' :: as, some e⟩
    | ⟨a', none⟩ => ⟨a' :: (each f as).val, (each f as).err⟩

/-- The search loops `/repo/auxi/modelling/business/structure.py:93-96,101-104`: `k` periods from period `i` on. -/
def searchFrom (clk : Clock) (t : Int) : Nat → Nat → Res (Option Nat)
  | 0, _ => .ok none
  | k + 1, i => match dateAt clk i with
    | .error e => .error e
    | .ok d => if d > t then .ok (some i) else searchFrom clk t k (i + 1)

/-- `/repo/auxi/modelling/business/structure.py:91-96`: the search for the first period, if it is made. -/
def searchStart (clk : Clock) (n : Nat) (a : Activity) : Res (Option Nat) :=
  if a.startIx = -1 ∧ a.start ≠ dtMin then searchFrom clk a.start n 0 else .ok none

/-- `/repo/auxi/modelling/business/structure.py:99-104`: the search for the number of periods, if it is made. -/
def searchStop (clk : Clock) (n : Nat) (a : Activity) : Res (Option Nat) :=
  if a.periodCount = -1 ∧ a.stop ≠ dtMax then searchFrom clk a.stop n 0 else .ok none

/-- `/repo/auxi/modelling/business/structure.py:95-98`: `start_period_ix` after a search. -/
def setStart (a : Activity) (r : Option Nat) : Activity :=
  let s := match r with | some i => (i : Int) | none => a.startIx
  { a with startIx := if s = -1 then 0 else s }

/-- `/repo/auxi/modelling/business/structure.py:103-108` and `/repo/auxi/modelling/business/basic.py:235-236`: the rest
of `prepare_to_run` after the second search. -/
def setStop (n : Nat) (a : Activity) (r : Option Nat) : Activity :=
  let p := match r with | some i => (i : Int) - a.startIx | none => a.periodCount
  { a with periodCount := p, endIx := if p ≠ -1 then a.startIx + p else a.startIx + n, kind := a.kind.reset }

/-- `/repo/auxi/modelling/business/structure.py:81-108`, `/repo/auxi/modelling/business/basic.py:223-236`
`prepare_to_run` of an activity. -/
def prepareActivity (clk : Clock) (n : Nat) (a : Activity) : Out Activity :=
  match searchStart clk n a with
  | .error e => ⟨a, some e⟩
  | .ok r => match searchStop clk n (setStart a r) with
    | .error e => ⟨setStart a r, some e⟩
    | .ok r' => ⟨setStop n (setStart a r) r', none⟩

mutual
/-- `/repo/auxi/modelling/business/structure.py:233-246` `Component.prepare_to_run`. -/
def prepareComponent (clk : Clock) (n : Nat) : Component → Out Component
  | ⟨nm, d, pp, p, cs, as⟩ => match prepareComponents clk n cs with
    | ⟨cs', some e⟩ => ⟨⟨nm, d, pp, p, cs', as⟩, some e⟩
    | ⟨cs', none⟩ =>
      ⟨⟨nm, d, pp, p, cs', (each (prepareActivity clk n) as).val⟩, (each (prepareActivity clk n) as).err⟩
/-- `/repo/auxi/modelling/business/structure.py:243-244,370-371` loop over components. -/
def prepareComponents (clk : Clock) (n : Nat) : List Component → Out (List Component)
  | [] => ⟨[], none⟩
  | c :: cs => match prepareComponent clk n c with
    | ⟨c', some e⟩ => ⟨c' :: cs, some e⟩
    | ⟨c', none⟩ => ⟨c' :: (prepareComponents clk n cs).val, (prepareComponents clk n cs).err⟩
end

/-- `/repo/auxi/modelling/business/structure.py:349-373` `Entity.prepare_to_run`: the old transactions are deleted only
after both year ends were found. -/
def prepareEntity (clk : Clock) (n : Nat) (e : Entity) : Out Entity :=
  match dateAt clk n with
  | .error err => ⟨{ e with periodCount := n }, some err⟩
  | .ok x => match plusYear clk.start with
    | .error err => ⟨{ e with periodCount := n, execYearEnd := x, prevYearEnd := clk.start }, some err⟩
    | .ok y => ⟨{ e with periodCount := n, execYearEnd := x, prevYearEnd := clk.start, currYearEnd := y,
                         transactions := [], components := (prepareComponents clk n e.components).val },
                (prepareComponents clk n e.components).err⟩

/-- `/repo/auxi/modelling/business/models.py:94-101` `prepare_to_run`. -/
def prepareModel (m : Model) : Out Model :=
  let r := each (prepareEntity m.clock.reset m.periodCount) m.entities
  ⟨{ m with clock := m.clock.reset, entities := r.val }, r.err⟩

/-- `/repo/auxi/modelling/business/basic.py:61-81` and `238-289` `run`: the date is worked out before anything is
changed. -/
def runActivity (clk : Clock) (a : Activity) : Out (Activity × List Tx) :=
  if a.meets clk.ix = false then ⟨(a, []), none⟩
  else match dateAt clk clk.ix with
  | .error e => ⟨(a, []), some e⟩
  | .ok _ => ⟨a.run clk, none⟩

/-- `/repo/auxi/modelling/business/structure.py:260-261` loop over the activities: what was posted before an exception
stays posted. -/
def runActivities (clk : Clock) : List Activity → Out (List Activity × List Tx)
  | [] => ⟨([], []), none⟩
  | a :: as => match runActivity clk a with
    | ⟨r, some e⟩ => ⟨(r.1 :: as, r.2), some e⟩
    | ⟨r, none⟩ =>
      ⟨(r.1 :: (runActivities clk as).val.1, r.2 ++ (runActivities clk as).val.2), (runActivities clk as).err⟩

mutual
/-- `/repo/auxi/modelling/business/structure.py:248-261` `Component.run`. -/
def runComponent (clk : Clock) : Component → Out (Component × List Tx)
  | ⟨nm, d, pp, p, cs, as⟩ => match runComponents clk cs with
    | ⟨r, some e⟩ => ⟨(⟨nm, d, pp, p, r.1, as⟩, r.2), some e⟩
    | ⟨r, none⟩ =>
      ⟨(⟨nm, d, pp, p, r.1, (runActivities clk as).val.1⟩, r.2 ++ (runActivities clk as).val.2), (runActivities clk as).err⟩
/-- `/repo/auxi/modelling/business/structure.py:258-259,386-387` loop over components. -/
def runComponents (clk : Clock) : List Component → Out (List Component × List Tx)
  | [] => ⟨([], []), none⟩
  | c :: cs => match runComponent clk c with
    | ⟨r, some e⟩ => ⟨(r.1 :: cs, r.2), some e⟩
    | ⟨r, none⟩ =>
      ⟨(r.1 :: (runComponents clk cs).val.1, r.2 ++ (runComponents clk cs).val.2), (runComponents clk cs).err⟩
end

/-- `/repo/auxi/modelling/business/structure.py:391-469` `_perform_year_end_procedure`: the years move on (lines
399-402) before the transactions are looked at (lines 412-458). -/
def yearEnd (clk : Clock) (e : Entity) : Out Entity :=
  match dateAt clk clk.ix with
  | .error err => ⟨e, some err⟩
  | .ok now =>
    if now ≥ e.currYearEnd ∨ (clk.ix : Int) = e.periodCount then
      match minusSecond e.currYearEnd with
      | .error err => ⟨e, some err⟩
      | .ok last => match plusYear e.currYearEnd with
        | .error err => ⟨{ e with prevYearEnd := e.currYearEnd }, some err⟩
        | .ok _ => match classifyAll e.chart ⟨[], []⟩ e.yearTxs with
          | .error err => ⟨e.advance, some err⟩
          | .ok w => ⟨{ e.advance with transactions := e.transactions ++ closingTxs e.chart e.path last w }, none⟩
    else ⟨e, none⟩

/-- `/repo/auxi/modelling/business/structure.py:375-389` `Entity.run`. -/
def runEntity (clk : Clock) (e : Entity) : Out Entity :=
  if (clk.ix : Int) ≥ e.periodCount then ⟨e, none⟩
  else
    let r := runComponents clk e.components
    let e' := { e with components := r.val.1, transactions := e.transactions ++ r.val.2 }
    match r.err with
    | some err => ⟨e', some err⟩
    | none => yearEnd clk e'

/-- `/repo/auxi/modelling/business/models.py:109-112` the loop over the periods (`k` of them). -/
def runLoop : Nat → Clock → List Entity → Out (Clock × List Entity)
  | 0, clk, es => ⟨(clk, es), none⟩
  | k + 1, clk, es => match each (runEntity clk) es with
    | ⟨es', some e⟩ => ⟨(clk, es'), some e⟩
    | ⟨es', none⟩ => runLoop k clk.tick es'

/-- `/repo/auxi/modelling/business/models.py:109-112`: what `run` does after `prepare_to_run`. -/
def runPrepared (m : Model) : Out Model :=
  ⟨{ m with clock := (runLoop m.periodCount m.clock m.entities).val.1,
            entities := (runLoop m.periodCount m.clock m.entities).val.2 },
   (runLoop m.periodCount m.clock m.entities).err⟩

/-- `/repo/auxi/modelling/business/models.py:103-112` `TimeBasedModel.run`. -/
def runModel (m : Model) : Out Model :=
  match prepareModel m with
  | ⟨p, some e⟩ => ⟨p, some e⟩
  | ⟨p, none⟩ => runPrepared p

end Auxi.RunState
