import Mathlib.Data.Rat.Floor
import Verif.Reports
import Verif.Csv
import Verif.Calendar

/-!
# The text of a report's cells: `"%.2f"`, dates, and the CSV file of a report

`/repo/auxi/modelling/financial/reporting.py:113-118,198-229,304-330` put amounts in the cells with `"%.2f" % x` or `"(%.2f)" % abs(x)`; `/repo/auxi/core/reporting.py:99-106` hands the table to
`csv.writer`, which writes `str` of a date and nothing for `None`.  Python's `%.2f` rounds the number exactly, to the nearest hundredth, ties to the even one.
Simplification: there is one zero here.  A float can be `-0.0`, which Python writes as `-0.00`.
-/
namespace Auxi.Money
open Reports Calendar

/-- The whole number nearest to `100 a`, ties to the even one (`%.2f`, `reporting.py:115,118,199,228`), for `a ≥ 0`. -/
def cents (a : ℚ) : ℕ :=
  let n := ⌊100 * a⌋₊
  let r := 100 * a - n
  if r < 1 / 2 then n else if 1 / 2 < r then n + 1 else if n % 2 = 0 then n else n + 1

/-- `n` with `k` digits, with leading zeros (the two decimals of `%.2f`; `%04d`, `%02d` and `%06d` in `str` of a date or datetime, `reporting.py:113`). -/
def padded : ℕ → ℕ → Str
  | 0, _ => []
  | k + 1, n => padded k (n / 10) ++ [Nat.digitChar (n % 10)]

/-- `"%.2f" % q` (`modelling/financial/reporting.py:115,118,199,207,211,221,224,228-229,305,313,316,323,325,328,330`). -/
def money (q : ℚ) : Str :=
  (if q < 0 then ['-'] else []) ++ (Nat.toDigits 10 (cents |q| / 100) ++ '.' :: padded 2 (cents |q| % 100))

/-- `str(d)` of a `date` with the given day number: `YYYY-MM-DD` (`t.tx_date` in the cell of `reporting.py:113`, written by `core/reporting.py:102,105`). -/
def dayText (n : Int) : Str :=
  let t := n * dayUs
  padded 4 (year t).toNat ++ '-' :: (padded 2 (month t).toNat ++ '-' :: padded 2 (day t).toNat)

/-- `HH:MM:SS`, with `.ffffff` if there are microseconds: the time in `str` of a `datetime` (`reporting.py:113`). -/
def clockText (us : ℕ) : Str :=
  padded 2 (us / 3600000000) ++ ':' :: (padded 2 (us / 60000000 % 60) ++ ':' :: (padded 2 (us / 1000000 % 60) ++
    (if us % 1000000 = 0 then [] else '.' :: padded 6 (us % 1000000))))

/-- `str(tx_date)` (`reporting.py:113`). -/
def whenText : When → Str
  | .date n => dayText n
  | .datetime t => dayText (t / dayUs) ++ ' ' :: clockText (timeOfDay t).toNat

/-- The text that `csv.writer` makes of a cell (`core/reporting.py:102,105`). -/
def cellText : Cell → Str
  | .text s => s
  | .money q => money q
  | .paren q => '(' :: (money q ++ [')'])
  | .date w => whenText w
  | .none => []

/-- The table as texts (`core/reporting.py:102,105`). -/
def texts (t : Table) : List (List Str) := t.map (·.map cellText)

/-- `csv.writer(f, lineterminator='\n').writerows(table)`: the text that a report puts in its `.csv` file (`core/reporting.py:102`). -/
def csvText (newer : Bool) (t : Table) : Str := Csv.writeRows newer "\n".toList (texts t)

end Auxi.Money
