import Verif.DateText
import Verif.Spec.Clock

/-! # Specification vocabulary for dates written as text -/
namespace Auxi.DateText.Spec

/-- A run of decimal digits. -/
def Digits (s : Str) : Prop := ∀ c ∈ s, c.isDigit = true

/-- The number a run of digits stands for. -/
def number (s : Str) : Int := s.foldl (fun acc c => 10 * acc + ((c.toNat : Int) - 48)) 0

/-- The text is `year-month-day`: four digits, one or two digits, and one or two digits or a blank and one digit. -/
def Written (s : Str) (y m d : Int) : Prop :=
  ∃ ys ms ds : Str, s = ys ++ '-' :: (ms ++ '-' :: ds) ∧
    (Digits ys ∧ ys.length = 4 ∧ number ys = y) ∧
    (Digits ms ∧ (ms.length = 1 ∨ ms.length = 2) ∧ number ms = m) ∧
    (Digits ds ∧ (ds.length = 1 ∨ ds.length = 2) ∧ number ds = d ∨
      ∃ e : Str, ds = ' ' :: e ∧ Digits e ∧ e.length = 1 ∧ number e = d)

/-- Day number `n` (counted from 0001-01-01) is day `d` of month `m` of year `y`, a year that Python's dates have. -/
def IsDay (n y m d : Int) : Prop := 1 ≤ y ∧ y ≤ 9999 ∧ Time.Spec.IsDate (n * 86400000000) y m d 0

/-- A digit as a character. -/
def chr (k : Int) : Char := Char.ofNat (48 + k.toNat)

/-- `date.isoformat()`: year with four digits, month and day with two. -/
def iso (y m d : Int) : Str :=
  [chr (y / 1000), chr (y / 100 % 10), chr (y / 10 % 10), chr (y % 10), '-', chr (m / 10), chr (m % 10), '-', chr (d / 10), chr (d % 10)]

end Auxi.DateText.Spec
