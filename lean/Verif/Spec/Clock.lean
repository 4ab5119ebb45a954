import Verif.Clock
/-! # Specification vocabulary for clocks -/
namespace Auxi.Time.Spec
open Auxi.Time Calendar

/-- Number of ticks at the end of a history, i.e. since the last reset (or since creation). -/
def ticksSinceReset (ops : List ClockOp) : Nat := (ops.reverse.takeWhile (· = .tick)).length

/-- Length in microseconds of the periods that have a fixed length. -/
def fixedLength : TimePeriod → Option Int
  | .millisecond => some 1000
  | .second => some (1000 * 1000)
  | .minute => some (60 * 1000 * 1000)
  | .hour => some (60 * 60 * 1000 * 1000)
  | .day => some (24 * 60 * 60 * 1000 * 1000)
  | .week => some (7 * 24 * 60 * 60 * 1000 * 1000)
  | .month => none
  | .year => none

/-- `t` is the instant `us` microseconds into day `d` of month `m` of year `y` of the Gregorian calendar, where
`d` is a day that the month has: the day number is obtained by counting the days of all earlier years and of all
earlier months of the year. -/
def IsDate (t y m d us : Int) : Prop :=
  1 ≤ m ∧ m ≤ 12 ∧ 1 ≤ d ∧ d ≤ dim y m ∧ 0 ≤ us ∧ us < 86400000000 ∧
    t = (daysBeforeYear y + daysBeforeMonth y m + (d - 1)) * 86400000000 + us

end Auxi.Time.Spec
