import Verif.Calendar

/-! # `/repo/auxi/core/time.py` -/
namespace Auxi.Time
open Calendar

/-- `/repo/auxi/core/time.py:23-35` `TimePeriod`. -/
inductive TimePeriod
  | millisecond | second | minute | hour | day | week | month | year
  deriving DecidableEq, Repr

/-- `/repo/auxi/core/time.py:38-63` `Clock` (name and description omitted). -/
structure Clock where
  start : DateTime
  duration : TimePeriod
  periodCount : Nat
  ix : Nat
  deriving DecidableEq

/-- `/repo/auxi/core/time.py:45-63` `Clock.__init__`. -/
def Clock.new (start : DateTime) (duration : TimePeriod) (periodCount : Nat) : Clock :=
  ⟨start, duration, periodCount, 0⟩

/-- `/repo/auxi/core/time.py:65-70` `tick`. -/
def Clock.tick (c : Clock) : Clock := { c with ix := c.ix + 1 }

/-- `/repo/auxi/core/time.py:72-77` `reset`. -/
def Clock.reset (c : Clock) : Clock := { c with ix := 0 }

/-- `/repo/auxi/core/time.py:79-103` `get_datetime_at_period_ix`. -/
def Clock.atIx (c : Clock) (ix : Int) : DateTime :=
  match c.duration with
  | .millisecond => c.start + ix * 1000
  | .second => c.start + ix * 1000000
  | .minute => c.start + ix * 60000000
  | .hour => c.start + ix * 3600000000
  | .day => c.start + ix * dayUs
  | .week => c.start + (ix * 7) * dayUs
  | .month => addMonths c.start ix
  | .year => addYears c.start ix

/-- `/repo/auxi/core/time.py:105-112` `get_datetime`. -/
def Clock.now (c : Clock) : DateTime := c.atIx c.ix

/-- The mutating calls on a clock: `/repo/auxi/core/time.py:65,72`. -/
inductive ClockOp | tick | reset
  deriving DecidableEq

/-- `/repo/auxi/core/time.py:65-77`. -/
def ClockOp.apply (c : Clock) : ClockOp → Clock
  | .tick => c.tick
  | .reset => c.reset

end Auxi.Time
