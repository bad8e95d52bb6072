import Verif.Model.Dates
import Verif.Model.Sphere
import Mathlib.Analysis.SpecialFunctions.Pow.Real
/-!
Loading a file of observed tracks as a whole (Utilities/loadData.py, `loadTrackFile`): forward motion and
estimated wind of each observation, and the division into tracks.  Start markers are those of
`DataProc.initialPositions` (C37), times those of the date columns (C70); elapsed times are C40, extremes of
a track C72, the environmental pressure C127.
-/
namespace Tcrm.LoadTrack
open Tcrm.DataProc Tcrm.Dates

/-- One line of the input: start marker, time (hours), position, central pressure (hPa), and the pressure of
the outermost isobar if it is a number (`none` is NaN; C72). -/
structure Rec where
  marker : ℤ
  time : ℚ
  lon : ℚ
  lat : ℚ
  pressure : ℚ
  poci : Option ℚ

/-- One row of a track. -/
structure Row where
  lon : ℚ
  lat : ℚ
  pressure : ℚ
  speed : ℝ
  bearing : ℝ
  wind : ℝ

/-- Utilities/loadData.py L155-202 (`getSpeedBearing`, `ieast` 1) at index `i` of the arrays: speed and
bearing.  A quotient by 0 is infinite or NaN, hence missing (L194, L198). -/
noncomputable def speedBearing (missing : ℝ) (mark : ℕ → ℤ) (lat lon : ℕ → ℝ) (dt : ℕ → ℚ) (i : ℕ) : ℝ × ℝ :=
  let leg := if i = 0 then (0, 0) else Sphere.latLon2Azi (lat (i - 1)) (lon (i - 1)) (lat i) (lon i) 1 0
  let speed := if dt i = 0 then missing
    else if leg.2 / dt i < 0 then missing
    else if 200 < leg.2 / dt i then missing
    else leg.2 / dt i
  (if mark i ≠ 0 then missing else speed, if mark i ≠ 0 then missing else leg.1)

/-- Utilities/loadData.py L240-241: forward speed in metres per second, 0 where it is missing. -/
noncomputable def translation (mark : ℕ → ℤ) (lat lon : ℕ → ℝ) (dt : ℕ → ℚ) (i : ℕ) : ℝ :=
  let s := (speedBearing 9223372036854775807 mark lat lon dt i).1 * 0.2777778
  if s > 10000 then 0 else s

/-- Utilities/loadData.py L246-252: change of the pressure per hour; quotients that are not numbers, and
implausible ones, are replaced by 0. -/
noncomputable def tendency (mark : ℕ → ℤ) (pressure : ℕ → ℚ) (dt : ℕ → ℚ) (i : ℕ) : ℝ :=
  let d : ℝ := if i = 0 then 0 else pressure i - pressure (i - 1)
  if mark i ≠ 0 then 0 else if dt i = 0 then 0 else if |d / dt i| > 5 then 0 else d / dt i

/-- Utilities/loadData.py L255-281 (`maxWindSpeed`) for one observation.  The square root of a negative
number is NaN in the program and replaced by 0, which is its value in Lean, as is that of a quotient by 0;
a negative power of 0 is infinite, so the speed is replaced by 0. -/
noncomputable def windOf (gustfactor lat pressure : ℝ) (poci : Option ℝ) (dpdt speed : ℝ) : ℝ :=
  match poci with
  | none => 0
  | some penv =>
    let deltap := penv - pressure
    let prmw := pressure + deltap / 3.7
    let tsurf := 28 - 3 * (|lat| - 10) / 20
    let qmix := 0.9 * (3.802 / prmw) * Real.exp (17.67 * tsurf / (243.5 + tsurf))
    let tvs := (tsurf + 273.15) * (1 + 0.81 * qmix)
    let rho := prmw * 100 / (tvs * 287.04)
    let chi := 0.6 * (1 - deltap / 215)
    let beta := -0.000044 * deltap ^ 2 + 0.01 * deltap + 0.03 * dpdt - 0.014 * |lat| + 0.15 * speed ^ chi + 1
    let v := gustfactor * √(deltap * 100 * beta / (rho * Real.exp 1))
    if speed = 0 ∧ chi < 0 then 0
    else if pressure ≥ 100000000 ∨ pressure ≤ 0 ∨ speed ≥ 100000000 then 0 else v

/-- The marks of the records after the splitting at jumps, Utilities/loadData.py L866-877. -/
def marks (recs : List Rec) : List ℤ :=
  (splitJumps 10 (recs.map fun r => ⟨r.marker, mod360 r.lon, r.lat⟩)).map (·.index)

/-- Entry `i` of a column. -/
def col {α : Type} (f : Rec → α) (d : α) (recs : List Rec) (i : ℕ) : α := ((recs[i]?).map f).getD d

/-- The rows of the array `data`, Utilities/loadData.py L861-955; `missing` is `missingValue`. -/
noncomputable def rows (missing : ℚ) (recs : List Rec) : List Row :=
  let mark := fun i => ((marks recs)[i]?).getD 0
  let lat : ℕ → ℝ := fun i => (col (·.lat) 0 recs i : ℚ)
  let lon : ℕ → ℝ := fun i => (col (fun r => mod360 r.lon) 0 recs i : ℚ)
  let p := col (fun r => filterPressure missing r.pressure) 0 recs
  let dt := fun i => ((timeDelta (recs.map (·.time)))[i]?).getD 0
  recs.mapIdx fun i r =>
    ⟨mod360 r.lon, r.lat, filterPressure missing r.pressure, (speedBearing missing mark lat lon dt i).1,
      (speedBearing missing mark lat lon dt i).2,
      windOf 0.9524 r.lat (filterPressure missing r.pressure : ℚ) (r.poci.map fun q : ℚ => (q : ℝ))
        (tendency mark p dt i) (translation mark lat lon dt i)⟩

/-- Utilities/loadData.py L794-966 (`loadTrackFile`) -/
noncomputable def load (missing : ℚ) (recs : List Rec) : Except Err (List (List Row)) :=
  splitTracks (marks recs) (rows missing recs)

end Tcrm.LoadTrack
