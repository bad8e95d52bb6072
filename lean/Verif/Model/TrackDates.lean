import Verif.Model.Times64
import Verif.Model.Arange64
/-!
Interpolated tracks in double precision: the new times (`np.arange`) and the dates calculated from them,
Evaluate/interpolateTracks.py L96-100 and L217-221. The interpolated values are not rounded. Year, month and day are
represented by the number of the day (`toordinal`).
-/
namespace Tcrm.TrackDates

open Tcrm.TrackInterp Tcrm.Binary64 Tcrm.Times64
open Tcrm.DataProc (npRound)

/-- Evaluate/interpolateTracks.py L96-97: `np.arange(timestep[0], timestep[-1] + .01, delta)`, and the last one replaced;
`timestep[0]` is zero. -/
def newTimes64 (T δ : ℚ) : Except Err (List ℚ) :=
  if δ = 0 then .error .zeroDivision
  else
    let l := Arange64.arange 0 (fl (T + fl (1 / 100))) δ
    if l = [] then .error .indexError else .ok (l.dropLast ++ [T])

/-- Evaluate/interpolateTracks.py L98: `(newtime / 24.) + time_[0] + date2num(np.datetime64('0000-12-31'))`, the number of
days since the start of 1970 -/
def serial (t0 t : ℚ) : ℚ := fl (fl (fl (t / 24) + t0) + -719163)

/-- matplotlib: `num2date(x)`, in microseconds since the start of 1970. The product is rounded to whole microseconds; more
than `70 * 365` days from 1970 the microseconds of the second are then rounded to a multiple of twenty. -/
def num2date (x : ℚ) : ℤ :=
  let us := npRound (fl (x * 86400000000))
  if 70 * 365 < |x| then us - us % 1000000 + npRound (fl (((us % 1000000 : ℤ) : ℚ) / 20)) * 20 else us

/-- Day, hour and minute of a date. -/
structure Clock where
  day : ℤ
  hour : ℤ
  minute : ℤ
  deriving DecidableEq

/-- Evaluate/interpolateTracks.py L217-221: day, hour and minute of the date, without its seconds -/
def clock (us : ℤ) : Clock := ⟨us / 86400000000 + 719163, us / 3600000000 % 24, us / 60000000 % 60⟩

/-- Evaluate/interpolateTracks.py L98-100: the dates of the new records -/
def newDates (obs : List Obs) (ts : List ℚ) : List ℤ :=
  match obs with
  | [] => []
  | o :: _ => ts.map fun t => num2date (serial (dayTime64 o.date) t)

/-- Evaluate/interpolateTracks.py L53-244 (`interpolate`): the new records, with their dates -/
def interpolateDates (leg : ℚ × ℚ → ℚ × ℚ → ℚ × ℚ) (kind : Kind) (obs : List Obs) (δ : ℚ) :
    Except Err (List Rec × List ℤ) :=
  match newTimes64 ((elapsed64 obs).getLast?.getD 0) δ with
  | .error e => .error e
  | .ok ts =>
    match interpolateOn leg kind (elapsed64 obs) obs δ ts with
    | .error e => .error e
    | .ok recs => .ok (recs, newDates obs ts)

end Tcrm.TrackDates
