import Verif.Model.Dates
import Verif.Model.Climate
/-!
Track files that give ages in place of dates, and the time of day of the observations (Utilities/loadData.py).
-/
namespace Tcrm.Ages
open Tcrm.Dates Tcrm.DataProc

/-- The fields of Python's `datetime` that are kept, Utilities/loadData.py L489-500. -/
structure Clock where
  year : ℕ
  month : ℕ
  day : ℕ
  hour : ℕ
  minute : ℕ
  deriving DecidableEq

/-- `datetime.toordinal` of the first of January (Python, `_days_before_year`), without the one of that day -/
def daysBefore (y : ℕ) : ℕ := 365 * (y - 1) + (y - 1) / 4 - (y - 1) / 100 + (y - 1) / 400

/-- `datetime.toordinal` -/
def ordinal (y m d : ℕ) : ℕ := daysBefore y + dayOfYear (isLeap y) m d

def yearLength (y : ℕ) : ℕ := if isLeap y then 366 else 365

/-- The month and day that are `n` days after the first of month `m`; `k` months follow in the year. -/
def monthDay (leap : Bool) : ℕ → ℕ → ℕ → ℕ × ℕ
  | 0, m, n => (m, n + 1)
  | k + 1, m, n => if n < daysInMonth leap m then (m, n + 1) else monthDay leap k (m + 1) (n - daysInMonth leap m)

/-- The date `n` days after the first of January of year `y` (the addition of a `timedelta`). -/
def dateFrom (y n : ℕ) : ℕ × ℕ × ℕ :=
  if h : n < yearLength y then (y, monthDay (isLeap y) 11 1 n)
  else dateFrom (y + 1) (n - yearLength y)
termination_by n
decreasing_by
  have : 0 < yearLength y := by unfold yearLength; split <;> omega
  omega

/-- Utilities/loadData.py L487: `timedelta(i)` of `i` days in microseconds, rounded to them; ages are not negative. -/
def microseconds (age : ℚ) : ℕ := (npRound (age / 24 * 86400000000)).toNat

/-- Utilities/loadData.py L468-502 (`parseAge`) for one observation: 2000-01-01 00:00 and the age, without the
seconds. -/
def parseAge (age : ℚ) : Clock :=
  let minutes := microseconds age / 60000000
  let (y, m, d) := dateFrom 2000 (minutes / 1440)
  ⟨y, m, d, minutes / 60 % 24, minutes % 60⟩

/-- `datetime(*x)` of Utilities/loadData.py L520, in hours from the day before 0001-01-01. -/
def hours (c : Clock) : ℚ := 24 * (ordinal c.year c.month c.day : ℚ) + c.hour + c.minute / 60

/-- What Utilities/loadData.py L848-864 (`loadTrackFile`) makes of a column of ages: elapsed times, steps between
observations and days of the year. -/
def loadAges (ages : List ℚ) : List ℚ × List ℚ × List (Except TimeErr ℕ) :=
  (ages, timeDelta ((ages.map parseAge).map hours),
    (ages.map parseAge).map fun c => julianDay c.year c.month c.day)

/-- The nearest number in single precision, for numbers from 2^19 to 2^20: there the spacing is 1/16. -/
def single (x : ℚ) : ℚ := (npRound (16 * x) : ℚ) / 16

/-- Utilities/loadData.py L556-576 (`getTime`) for one observation; the day numbers of the years 1437 to 2869 lie
between 2^19 and 2^20. -/
def getTime (c : Clock) : ℚ := single ((ordinal c.year c.month c.day : ℚ) + c.hour / 24)

/-- Utilities/loadData.py L928-929 (`loadTrackFile`): the environmental pressure of an observation in a file without
such a column. -/
def environment (f : Climate.File) (c : Clock) (lat lon : ℚ) : Except TimeErr ℚ :=
  match julianDay c.year c.month c.day with
  | .error e => .error e
  | .ok j => .ok (Climate.ltmPressure f j (getTime c) lat lon)

end Tcrm.Ages
