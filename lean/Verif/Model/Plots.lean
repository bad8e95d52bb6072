import Verif.Model.Units
import Verif.Model.Grid
import Mathlib.Data.List.Sort
import Mathlib.Data.Int.Log
import Mathlib.Data.Rat.Floor
/-!
Numbers shown in plots: the hazard curve of a location (PlotInterface/AutoPlotHazard.py, PlotInterface/curves.py)
and the contour levels of maps (PlotInterface/maps.py).  Drawing itself is not modelled.
-/
namespace Tcrm.Plots

/-- PlotInterface/AutoPlotHazard.py L230-234: the wind speeds of the events of the location, zeros for the other
days of the simulation, in order; `none` if there are more events than days (ValueError). -/
noncomputable def allEvents (numSimulations : ℕ) (recs : List ℝ) : Option (List ℝ) :=
  let days := ⌊(numSimulations : ℚ) * 365.25⌋₊
  if recs.length ≤ days then
    some ((List.replicate (days - recs.length) 0 ++ recs).insertionSort (· ≤ ·))
  else none

/-- PlotInterface/curves.py L409-429 (`empReturnPeriod`, `npyr` 365.25) -/
def empReturnPeriod (nobs : ℕ) : List ℚ :=
  (List.range nobs).map fun i : ℕ => 1 / (1 - ((i : ℚ) + 1) / ((nobs : ℚ) + 1)) / 365.25

/-- PlotInterface/curves.py L389-396: the points drawn for the events. -/
noncomputable def scatter (events : List ℝ) : List (ℚ × ℝ) :=
  ((empReturnPeriod events.length).zip events).filter fun p => 1 < p.1

/-- What a hazard curve shows: the fitted levels by return period, and the points of the events. -/
structure Curve where
  fitted : List (ℚ × ℝ)
  points : List (ℚ × ℝ)

/-- PlotInterface/AutoPlotHazard.py L212-255 (`plotHazardCurves`) for one location, without confidence limits:
`wspd k j i` is the level for period `k` in row `j` and column `i` of the hazard file, `recs` the wind speeds of
the location in the database. -/
noncomputable def hazardCurve (units : String) (numSimulations : ℕ) (lon lat : List ℚ) (years : List ℚ)
    (wspd : ℕ → ℕ → ℕ → ℝ) (plon plat : ℚ) (recs : List ℝ) : Option Curve :=
  match Grid.findIndex lon plon, Grid.findIndex lat plat, allEvents numSimulations recs with
  | .ok i, .ok j, some events =>
    some ⟨years.mapIdx fun k y => (y, Units.convert (wspd k j i) "mps" units), scatter events⟩
  | _, _, _ => none

/-- PlotInterface/AutoPlotHazard.py L52-58: units that can be configured, with their labels. -/
def plotUnits : List (String × String) :=
  [("mps", "m/s"), ("mph", "mi/h"), ("kts", "kts"), ("kph", "km/h"), ("kmh", "km/h")]

/-- Exceptions of `levels` -/
inductive Err where
  | value
  | index
  deriving DecidableEq

/-- `np.arange(a, b, s)` -/
def arange (a b s : ℚ) : List ℚ := (List.range ⌈(b - a) / s⌉₊).map fun i : ℕ => a + i * s

/-- PlotInterface/maps.py L60 -/
def levelOpts : List ℚ := [5, 1, 0.5, 0.25, 0.2, 0.1]

/-- PlotInterface/maps.py L29-67 (`levels`) for numbers.  `int(np.floor(np.log10(0)))` and that of a negative
number raise. -/
def levels (maxval minval : ℚ) : Except Err (List ℚ × ℤ) :=
  if maxval = minval then .error .value
  else
    let hi := max maxval minval
    let lo := min maxval minval
    if hi ≤ 0 then .error .value
    else
      let exponent := Int.log 10 hi
      let significand := (hi - lo) * (10 : ℚ) ^ (-exponent)
      match levelOpts.find? (fun o => 7 < significand / o) with
      | none => .error .index
      | some o => .ok (arange lo hi (o * (10 : ℚ) ^ exponent), exponent)

end Tcrm.Plots
