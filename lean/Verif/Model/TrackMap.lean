import Mathlib.Data.Rat.Defs
import Mathlib.Algebra.Order.Field.Rat
import Mathlib.Tactic.NormNum
/-!
Maps of tracks, coloured by category.
-/
namespace Tcrm.TrackMap

inductive Err where
  | valueError
  deriving DecidableEq, Repr

/-- PlotInterface/tracks.py L26-38 (`makeSegments`); coordinates of different numbers make no rectangular array (L35). -/
def makeSegments (xx yy : List ℚ) : Except Err (List ((ℚ × ℚ) × (ℚ × ℚ))) :=
  if xx.length ≠ yy.length then .error .valueError
  else
    let points := xx.zip yy
    .ok (points.dropLast.zip points.tail)

/-- PlotInterface/tracks.py L48-49: colours -/
def colours : List String := ["0.75", "#0FABF6", "#0000FF", "#00FF00", "#FF8100", "#ff0000"]

/-- PlotInterface/tracks.py L50: bounds of the categories -/
def intervals : List ℚ := [0, 17.5, 24.5, 32.5, 44.2, 55.5, 1000]

/-- PlotInterface/tracks.py L81-82: labels -/
def labels : List String := ["No data", "Category 1", "Category 2", "Category 3", "Category 4", "Category 5"]

/-- PlotInterface/tracks.py L83-85: the legend -/
def legend : List (String × String) := (colours.zip labels).map fun e => (e.2, e.1)

/-- `BoundaryNorm(intervals, cmap.N)` with `ListedColormap(colours)`, PlotInterface/tracks.py L77-78, by the documentation of
matplotlib: the interval that includes its lower bound; below the first and from the last bound on, the first and the last
colour; no colour for a missing value. -/
def colourOf : Option ℚ → Option String
  | none => none
  | some z =>
    if z < 0 then colours.head?
    else if z ≥ 1000 then colours.getLast?
    else colours[(intervals.countP fun b => decide (b ≤ z)) - 1]?

/-- A line on the map -/
structure Leg where
  start : ℚ × ℚ
  stop : ℚ × ℚ
  colour : Option String
  deriving DecidableEq

/-- PlotInterface/tracks.py L47-90 (`colorline`): a `LineCollection` takes the colours of `array` in turn. `z` are the wind speeds,
`none` for NaN. -/
def colorline (xdata ydata : List ℚ) (z : List (Option ℚ)) : Except Err (List Leg) :=
  match makeSegments xdata ydata with
  | .error e => .error e
  | .ok segments => .ok (segments.mapIdx fun i s => ⟨s.1, s.2, (z[i % z.length]?).bind colourOf⟩)

/-- A track: positions on the map and wind speeds -/
structure Track where
  lon : List ℚ
  lat : List ℚ
  wind : List (Option ℚ)

/-- PlotInterface/tracks.py L95-101 (`TrackMapFigure.subplot`): the lines of all tracks; `project` is the map projection `mapobj`. -/
def subplot (project : List ℚ → List ℚ → List ℚ × List ℚ) (tracks : List Track) : Except Err (List Leg) :=
  (tracks.mapM fun t => colorline (project t.lon t.lat).1 (project t.lon t.lat).2 t.wind).map List.flatten

end Tcrm.TrackMap
