import Verif.Model.Rates
import Mathlib.Analysis.SpecialFunctions.Trigonometric.Basic
/-!
The data shown in the plots of the input data, PlotInterface/plotStats.py (called from tcrm.py L265-371). A figure is
its two labels and its points; drawing, regression lines and marginal distributions (seaborn, scipy) are not modelled.
Columns are read from the files written by DataProcess; a missing value is `Rates.M` (`sys.maxsize` as floating point);
a comparison `x < sys.maxsize` is made in floating point. An infinite value is treated as missing by every test here and
is not distinguished from it.
-/
namespace Tcrm.StatPlots
open Tcrm.Rates

/-- What an axis label names. -/
inductive Var where
  | pressure | pressureRate | bearing | bearingRate | speed | speedRate | lonStep | latStep
  deriving DecidableEq

/-- A label: a variable, at `t - lag` -/
structure Label where
  var : Var
  lag : ℕ
  deriving DecidableEq

/-- A scatter plot -/
structure Fig (α : Type) where
  x : Label
  y : Label
  pts : List (α × α)

/-- PlotInterface/plotStats.py L99-103 and L109 (`scatterHistogram`): the points shown. The two columns have the same
length wherever the method is called. -/
def scatter {α : Type} (xdata ydata : List ℚ) (x y : Label) (transform : ℚ → α) : Fig α where
  x := x
  y := y
  pts := ((xdata.zip ydata).filter fun p => decide (p.1 < M) && decide (p.2 < M)).map
    fun p => (transform p.1, transform p.2)

/-- A plot against the value before: PlotInterface/plotStats.py L250-259 (`plotPressure`, `plotPressureRate`),
L312-316 (`plotBearingRate`), L321-330 (`plotSpeed`, `plotSpeedRate`) -/
def lagPlot (v : Var) (data : List ℚ) : Fig ℚ :=
  scatter data.tail data.dropLast ⟨v, 0⟩ ⟨v, 1⟩ id

/-- PlotInterface/plotStats.py L303-310 (`plotBearing`), the transform of L305-306 included -/
noncomputable def plotBearing (data : List ℚ) : Fig ℝ :=
  scatter data.tail data.dropLast ⟨.bearing, 0⟩ ⟨.bearing, 1⟩ fun x => Real.cos ((x : ℝ) / 2)

/-- The body of the loop in PlotInterface/plotStats.py L278-284 (`plotMinPressure`): `acc` is `pcarray`, last element
first; `none` is the IndexError of `pcarray[-1]` when the array is empty. (No element of the column is `None`.) -/
def minStep (acc : List ℚ) (o : ℤ × ℚ) : Option (List ℚ) :=
  if o.1 = 1 then some (o.2 :: acc)
  else match acc with
    | [] => none
    | m :: rest => some ((if o.2 < m then o.2 else m) :: rest)

/-- PlotInterface/plotStats.py L276-288 (`plotMinPressure`): the values of which the distribution is shown; `none` is
an IndexError. -/
def minPressures (index : List ℤ) (p : List ℚ) : Option (List ℚ) :=
  if p.length < index.length - 1 then none
  else (((index.zip p).take (index.length - 1)).foldlM minStep []).map
    fun acc => acc.reverse.filter fun x => decide (x < M)

/-- `x[1:] - x[:-1]` for the rows with `indicator[1:] == 0`, PlotInterface/plotStats.py L386-390 -/
def steps (x : List ℚ) (indicator : List ℤ) : List ℚ :=
  (((x.tail.zip x.dropLast).map fun p => p.1 - p.2).zip indicator.tail).filterMap
    fun p => if p.2 = 0 then some p.1 else none

/-- PlotInterface/plotStats.py L385-392 (`dlon`) -/
def lonSteps (lon : List ℚ) (indicator : List ℤ) : List ℚ :=
  (steps lon indicator).map fun d => if d < -180 then d + 360 else d

/-- PlotInterface/plotStats.py L385-400 (`plotLonLat`): the three scatter plots -/
def plotLonLat (lon lat : List ℚ) (indicator : List ℤ) : Fig ℚ × Fig ℚ × Fig ℚ :=
  let dlon := lonSteps lon indicator
  let dlat := steps lat indicator
  (scatter dlon.tail dlon.dropLast ⟨.lonStep, 1⟩ ⟨.lonStep, 0⟩ id,
    scatter dlat.tail dlat.dropLast ⟨.latStep, 1⟩ ⟨.latStep, 0⟩ id,
    scatter dlon dlat ⟨.lonStep, 0⟩ ⟨.latStep, 0⟩ id)

/-- `np.average` -/
noncomputable def average (d : List ℝ) : ℝ := d.sum / d.length

/-- `np.std` -/
noncomputable def std (d : List ℝ) : ℝ := Real.sqrt (average (d.map fun x => (x - average d) ^ 2))

/-- PlotInterface/plotStats.py L232-235 (`quantile`): the anomalies passed to `probplot` -/
noncomputable def anomalies (data : List ℚ) : List ℝ :=
  let d : List ℝ := (data.filter fun x => decide (x < M)).map fun x : ℚ => (x : ℝ)
  d.map fun x => (x - average d) / std d

end Tcrm.StatPlots
