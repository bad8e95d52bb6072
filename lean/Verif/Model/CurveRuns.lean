import Verif.Model.Database
/-!
Which hazard curves are plotted by a history of runs in one output folder.
Models /repo/tcrm.py L557-567, /repo/PlotInterface/AutoPlotHazard.py (`plotCurves`, `getLocations`, `plotHazardCurves`) and
/repo/database/__init__.py (`HazardDatabase`, `createDatabase`, `getLocations`).  What is in a curve is in Verif/Model/Plots.lean.
-/
namespace Tcrm.CurveRuns
open Tcrm.Database

/-- How plotting can fail -/
inductive Err
  | noTable
  | valueError
  | update (e : Database.Err)
  deriving DecidableEq

/-- The hazard file of a run: its axes, and whether all levels at row `j` and column `i` are missing -/
structure HazardFile where
  lon : List ℚ
  lat : List ℚ
  null : ℕ → ℕ → Bool

/-- A curve: the location it is named after, the grid point whose levels it shows, and the wind speeds of the events in it
(sorted afterwards, L235) -/
structure Curve where
  locId : ℤ
  i : ℕ
  j : ℕ
  events : List Num
  deriving DecidableEq

/-- PlotInterface/AutoPlotHazard.py L212-255, the loop for one location.  L230-233: the records are put at the end of an array of
`days` zeros, which fails if there are more of them (a single one is broadcast); L240-242: no curve where all levels are
missing. -/
def plotOne (days : ℕ) (h : HazardFile) (db : DB) (l : Location) : Except Err (Option Curve) :=
  match Grid.findIndex h.lon l.lon, Grid.findIndex h.lat l.lat with
  | .ok i, .ok j =>
    let recs := (db.winds.filter fun w => w.locId = l.locId).map (·.wspd)
    if days < recs.length ∧ recs.length ≠ 1 then .error .valueError
    else if h.null j i then .ok none
    else .ok (some ⟨l.locId, i, j, recs⟩)
  | _, _ => .error .valueError

/-- PlotInterface/AutoPlotHazard.py L211-255: all locations in turn; the curves drawn until an error -/
def plotAll (days : ℕ) (h : HazardFile) (db : DB) : List Location → List Curve × Option Err
  | [] => ([], none)
  | l :: ls =>
    match plotOne days h db l with
    | .error e => ([], some e)
    | .ok none => plotAll days h db ls
    | .ok (some c) => (c :: (plotAll days h db ls).1, (plotAll days h db ls).2)

/-- PlotInterface/AutoPlotHazard.py L134-143 and L177-190 (`plotCurves`, `getLocations`) with database/__init__.py L239-259: the
locations are those in the database; `none` is a database without tables, as opened by L166 the first time. -/
def plotCurves (days : ℕ) (h : HazardFile) : Option DB → List Curve × Option Err
  | none => ([], some .noTable)
  | some db => plotAll days h db db.locations

/-- What a run is asked for, and its results -/
structure Run where
  create : Bool
  plot : Bool
  domain : Domain
  output : Output
  hazard : HazardFile
  numsim : ℕ

/-- tcrm.py L557-567: the database is updated if asked for (database/__init__.py L179-191 makes the tables if they are not
there), then the hazard is plotted if asked for.  Other stages, and the maps drawn before the curves, are not modelled. -/
def run (stored : List Location) (r : Run) (tables : Option DB) : Option DB × List Curve × Option Err :=
  let u : Option DB × Option Err :=
    if r.create then
      let v := update stored r.domain r.output (tables.getD empty)
      (some v.1, v.2.map .update)
    else (tables, none)
  match u.2 with
  | some e => (u.1, [], some e)
  | none =>
    if r.plot then (u.1, plotCurves ⌊(r.numsim : ℚ) * 365.25⌋₊ r.hazard u.1)
    else (u.1, [], none)

/-- The database after a history of runs -/
def after (stored : List Location) : List Run → Option DB → Option DB
  | [], t => t
  | r :: rs, t => after stored rs (run stored r t).1

end Tcrm.CurveRuns
