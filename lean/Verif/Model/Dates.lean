import Verif.Model.DataProc
/-!
Dates and times of observations, Utilities/loadData.py and DataProcess/DataProcess.py. The calendar is
the proleptic Gregorian one of Python's `datetime`.
-/
namespace Tcrm.Dates
open Tcrm.DataProc

inductive TimeErr where
  | valueError
  | unboundLocal
  deriving DecidableEq

/-- `calendar.isleap` -/
def isLeap (y : ℕ) : Bool := decide (y % 4 = 0) && (decide (y % 100 ≠ 0) || decide (y % 400 = 0))

/-- Days of month `m` (1 to 12) -/
def daysInMonth (leap : Bool) : ℕ → ℕ
  | 2 => if leap then 29 else 28
  | 4 => 30
  | 6 => 30
  | 9 => 30
  | 11 => 30
  | _ => 31

/-- A month and day that exist. -/
def validDay (leap : Bool) (m d : ℕ) : Bool := decide (1 ≤ m ∧ m ≤ 12 ∧ 1 ≤ d ∧ d ≤ daysInMonth leap m)

/-- `strftime("%j")`: the number of the day in the year. -/
def dayOfYear (leap : Bool) (m d : ℕ) : ℕ := ((List.range' 1 (m - 1)).map (daysInMonth leap)).sum + d

/-- Utilities/loadData.py L579-619 (`julianDays`) for one date; years before 1900 are replaced by 1904. -/
def julianDay (y m d : ℕ) : Except TimeErr ℕ :=
  let jy := if y < 1900 then 1904 else y
  if validDay (isLeap jy) m d then .ok (dayOfYear (isLeap jy) m d) else .error .valueError

/-- DataProcess/DataProcess.py L817-819: the day that is stored for an observation. -/
def storedDay (y m d : ℕ) : Except TimeErr ℕ :=
  match julianDay y m d with
  | .error e => .error e
  | .ok j => .ok (if y % 4 = 0 ∧ j ≥ 60 then j - 1 else j)

/-- Utilities/loadData.py L525-553 (`getTimeElapsed`); times in hours. `start` is unbound before the first
marker. -/
def timeElapsed : Option ℚ → List (ℤ × ℚ) → Except TimeErr (List ℚ)
  | _, [] => .ok []
  | start, p :: l =>
    if p.1 = 1 then
      match timeElapsed (some p.2) l with
      | .error e => .error e
      | .ok es => .ok (0 :: es)
    else
      match start with
      | none => .error .unboundLocal
      | some s =>
        match timeElapsed start l with
        | .error e => .error e
        | .ok es => .ok ((p.2 - s) :: es)

/-- Utilities/loadData.py L505-523 (`getTimeDelta`): whole hours since the previous observation. -/
def timeDelta : List ℚ → List ℚ
  | [] => [0]
  | t :: l => 0 :: ((t :: l).zip l).map fun p => (npRound (p.2 - p.1) : ℚ)

/-- Utilities/loadData.py L845-877 in order: the elapsed times are computed from the markers before the
splitting at jumps. The result is the markers and the elapsed times. -/
def loadTimes (obs : List Obs) (times : List ℚ) : Except TimeErr (List ℤ × List ℚ) :=
  match timeElapsed none ((obs.map (·.index)).zip times) with
  | .error e => .error e
  | .ok es => .ok ((splitJumps 10 obs).map (·.index), es)

/-- Utilities/loadData.py L452-461: hours and minutes from the column of hours, for a file without a
column of minutes. -/
def splitHours (hours : List ℕ) : List (ℕ × ℕ) :=
  if ∃ h ∈ hours, h ≥ 100 then hours.map fun h => (h / 100, h % 100) else hours.map fun h => (h, 0)

/-- Utilities/loadData.py L755-771 (`getMinPressure`); L773-791 (`getMaxWind`) is the same with `max`. -/
def best (f : ℚ → ℚ → ℚ) (missing : ℚ) (l : List ℚ) : ℚ :=
  match l.filter (· ≠ missing) with
  | [] => missing
  | x :: l => l.foldl f x

/-- Utilities/loadData.py L666-723 (`getPoci`) for one observation; `model` is the regression formula,
`none` is NaN. -/
def getPoci (model : ℚ → ℚ → ℚ) (missing penv pcentre : ℚ) : Option ℚ :=
  if penv < pcentre then none else if pcentre = missing then none else some (model penv pcentre)

/-- Utilities/loadData.py L879-880 with L744-753 (`filterPressure`), input in hPa. -/
def filterPressure (missing p : ℚ) : ℚ := if p < 600 ∨ p > 1100 then missing else p

/-- Utilities/loadData.py L879-880 and L933: `loadTrackFile` marks missing pressures with its own
`missing` (0 unless another is given) but calls `getPoci` with the default mark `sys.maxsize`. -/
def loadPoci (model : ℚ → ℚ → ℚ) (missing penv p : ℚ) : Option ℚ :=
  getPoci model (2 ^ 63) penv (filterPressure missing p)

end Tcrm.Dates
