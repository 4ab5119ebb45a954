import Verif.Basic

/-!
# Dates: the part of `datetime` / `dateutil.relativedelta` used by auxi

A naive `datetime` is modelled by the number of microseconds since 0001-01-01 00:00 (proleptic Gregorian
calendar), so comparison and `timedelta` arithmetic are those of `Int`.  `relativedelta` works on the calendar
fields.  Simplification: the year range 1..9999 (`OverflowError`/`ValueError` outside it) is not modelled here, but in `RunState`;
`date` objects (as opposed to `datetime`) are not modelled.
-/
namespace Auxi.Calendar

/-- A naive `datetime`, as used by `/repo/auxi/core/time.py:45-60`, is an `Int` (microseconds). -/
notation "DateTime" => Int

/-- Leap year rule of the proleptic Gregorian calendar (`datetime`, used through `/repo/auxi/core/time.py:6,96-103`). -/
def isLeap (y : Int) : Bool := y % 4 = 0 && (y % 100 ≠ 0 || y % 400 = 0)

/-- Days in a month (`calendar.monthrange`, used by `relativedelta`; `/repo/auxi/core/time.py:101,103`). -/
def dim (y m : Int) : Int :=
  if m = 2 then (if isLeap y then 29 else 28)
  else if m = 4 ∨ m = 6 ∨ m = 9 ∨ m = 11 then 30 else 31

/-- Days before 1 January of year `y` (`datetime` ordinals; `/repo/auxi/core/time.py:96-103`). -/
def daysBeforeYear (y : Int) : Int := 365 * (y - 1) + (y - 1) / 4 - (y - 1) / 100 + (y - 1) / 400

/-- Days of year `y` before the first of month `m` (`datetime` ordinals; `/repo/auxi/core/time.py:96-103`). -/
def daysBeforeMonth (y m : Int) : Int :=
  (if m = 1 then 0 else if m = 2 then 31 else if m = 3 then 59 else if m = 4 then 90 else if m = 5 then 120
   else if m = 6 then 151 else if m = 7 then 181 else if m = 8 then 212 else if m = 9 then 243
   else if m = 10 then 273 else if m = 11 then 304 else 334) + (if 2 < m ∧ isLeap y then 1 else 0)

/-- Day number of a date, 0001-01-01 being day 0 (`datetime` ordinals; `/repo/auxi/core/time.py:96-103`). -/
def dayNumber (y m d : Int) : Int := daysBeforeYear y + daysBeforeMonth y m + (d - 1)

/-- Microseconds per day (`timedelta`; `/repo/auxi/core/time.py:88-99`). -/
def dayUs : Int := 86400000000

/-- The datetime with the given calendar fields and microseconds since midnight
(`datetime(y, m, d, ...)`; `/repo/auxi/core/time.py:6`). -/
def mkDateTime (y m d us : Int) : DateTime := dayNumber y m d * dayUs + us

/-- Year of a day number (`datetime.year`; used by `relativedelta`, `/repo/auxi/core/time.py:101,103`). -/
def yearOfDay (n : Int) : Int :=
  let r400 := n % 146097
  let q100 := min (r400 / 36524) 3
  let r100 := r400 - 36524 * q100
  let q4 := r100 / 1461
  let q1 := min (r100 % 1461 / 365) 3
  400 * (n / 146097) + 100 * q100 + 4 * q4 + q1 + 1

/-- Month of a year from the 0-based day of the year
(`datetime.month`; used by `relativedelta`, `/repo/auxi/core/time.py:101,103`). -/
def monthOfDoy (y r : Int) : Int :=
  if r < daysBeforeMonth y 2 then 1 else if r < daysBeforeMonth y 3 then 2 else if r < daysBeforeMonth y 4 then 3
  else if r < daysBeforeMonth y 5 then 4 else if r < daysBeforeMonth y 6 then 5 else if r < daysBeforeMonth y 7 then 6
  else if r < daysBeforeMonth y 8 then 7 else if r < daysBeforeMonth y 9 then 8 else if r < daysBeforeMonth y 10 then 9
  else if r < daysBeforeMonth y 11 then 10 else if r < daysBeforeMonth y 12 then 11 else 12

/-- `datetime.year` (`/repo/auxi/core/time.py:101,103` through `relativedelta`). -/
def year (t : DateTime) : Int := yearOfDay (t / dayUs)
/-- `datetime.month` (`/repo/auxi/core/time.py:101,103` through `relativedelta`). -/
def month (t : DateTime) : Int := monthOfDoy (year t) (t / dayUs - daysBeforeYear (year t))
/-- `datetime.day` (`/repo/auxi/core/time.py:101,103` through `relativedelta`). -/
def day (t : DateTime) : Int := t / dayUs - daysBeforeYear (year t) - daysBeforeMonth (year t) (month t) + 1
/-- The time of day in microseconds (`datetime.time()`; `/repo/auxi/core/time.py:101,103`). -/
def timeOfDay (t : DateTime) : Int := t % dayUs

/-- `t + relativedelta(months=k)`: the month moves by `k`, carrying into the year, and the day is clipped to the
length of the new month; `/repo/auxi/core/time.py:101`, `/repo/auxi/modelling/business/basic.py:182`. -/
def addMonths (t : DateTime) (k : Int) : DateTime :=
  let i := year t * 12 + (month t - 1) + k
  let y := i / 12
  let m := i % 12 + 1
  mkDateTime y m (min (dim y m) (day t)) (timeOfDay t)

/-- `t + relativedelta(years=k)`; `/repo/auxi/core/time.py:103`,
`/repo/auxi/modelling/business/structure.py:364,400`. -/
def addYears (t : DateTime) (k : Int) : DateTime :=
  let y := year t + k
  mkDateTime y (month t) (min (dim y (month t)) (day t)) (timeOfDay t)

end Auxi.Calendar
