import Verif.Model.Dates
import Verif.Model.Shapes
/-!
The attribute tables of the shape files of tracks: Utilities/tracks2shp.py (and Utilities/shptools.py L393-534), with
the records of loadTrackFile (Utilities/loadData.py) and ncReadTrackData (Utilities/track.py).

A record is the list of its fields with their values, in the order of the array type.  The shape-file library puts the
values of a record into the columns one after the other; how it writes them as text is not modelled.
-/
namespace Tcrm.ShapeTable

/-- Numbers, and points in time -/
inductive Value where
  | num (x : ℚ)
  | date (t : ℚ)
  deriving DecidableEq

abbrev Record := List (String × Value)

inductive Err where
  /-- no field of that name -/
  | value
  /-- comparison of a point in time with a number -/
  | type
  /-- UnboundLocalError or IndexError: a track without data -/
  | index
  deriving DecidableEq

/-- Utilities/track.py L42-45 (`trackFields`) -/
def trackFields : List String :=
  ["Indicator", "CycloneNumber", "Year", "Month", "Day", "Hour", "Minute", "TimeElapsed", "Datetime", "Longitude",
   "Latitude", "Speed", "Bearing", "CentralPressure", "WindSpeed", "rMax", "EnvPressure"]

/-- Utilities/track.py L165-167 (`TCRM_COLS`) -/
def tcrmCols : List String :=
  ["CycloneNumber", "Datetime", "TimeElapsed", "Longitude", "Latitude", "Speed", "Bearing", "CentralPressure",
   "EnvPressure", "rMax"]

/-- Utilities/tracks2shp.py L21-39 (`OBSFIELD_NAMES`) -/
def obsFields : List String :=
  ["Indicator", "TCID", "Year", "Month", "Day", "Hour", "Minute", "TElapsed", "Longitude", "Latitude", "Speed",
   "Bearing", "Pcentre", "MaxWind", "rMax", "Penv", "Category"]

/-- Utilities/tracks2shp.py L50-61 (`TCRM_FIELD_NAMES`) -/
def tcrmFields : List String :=
  ["CycloneNumber", "TimeElapsed", "Longitude", "Latitude", "Speed", "Bearing", "CentralPressure", "EnvPressure", "rMax",
   "Category"]

/-- Utilities/tracks2shp.py L74-84 (`EVENTFIELD_NAMES`) -/
def eventFields : List String := ["TCID", "Year", "Month", "Day", "Hour", "Minute", "Age", "MinCP", "MaxWind"]

/-- Utilities/shptools.py L24-41 (`OBSFIELD_NAMES`) -/
def oldFields : List String :=
  ["Indicator", "TCID", "Year", "Month", "Day", "Hour", "Minute", "TimeElapsed", "Longitude", "Latitude", "Speed",
   "Bearing", "CentralPressure", "WindSpeed", "rMax", "EnvPressure"]

/-- Utilities/tracks2shp.py L98-121 (`recdropfields`), one record -/
def dropFields (names : List String) (r : Record) : Record := r.filter fun f => !names.contains f.1

/-- The field of a record, `rec[name]` -/
def field (r : Record) (name : String) : Except Err Value :=
  match r.lookup name with
  | some v => .ok v
  | none => .error .value

/-- A number -/
def numField (r : Record) (name : String) : Except Err ℚ :=
  match r.lookup name with
  | some (.num x) => .ok x
  | some (.date _) => .error .type
  | none => .error .value

/-- Utilities/tracks2shp.py L124-155 (`add_field`, `add_category`), one record -/
def addCategory (r : Record) : Except Err Record :=
  match numField r "CentralPressure" with
  | .ok p => .ok (r ++ [("Category", .num (Shapes.category p))])
  | .error e => .error e

/-- `sf.record(*values)` for a file with the given columns -/
def row (columns : List String) (values : List Value) : Record := columns.zip values

/-- A track -/
structure Track where
  data : List Record

/-- Utilities/tracks2shp.py L158-194 (`tracks2point`): the rows of the table -/
def pointRows (columns : List String) (tracks : List Track) : List Record :=
  tracks.flatMap fun t => t.data.map fun r => row columns ((dropFields ["Datetime"] r).map (·.2))

/-- Utilities/shptools.py L393-419 (`tracks2point`): the same without removing the dates -/
def oldPointRows (tracks : List Track) : List Record :=
  tracks.flatMap fun t => t.data.map fun r => row oldFields (r.map (·.2))

/-- Utilities/tracks2shp.py L273-319 (`tracks2line`), one track: a row for each segment, and one for the last point -/
def lineRowsOf (columns : List String) (t : Track) : Except Err (List Record) :=
  match t.data with
  | [] => .error .index
  | r :: rs =>
    let data := (r :: rs).map (dropFields ["Datetime"])
    if data.length = 1 then .ok [row columns ((data.getD 0 []).map (·.2))]
    else .ok (((List.range (data.length - 1)).map fun n => row columns ((data.getD n []).map (·.2))) ++
      [row columns ((data.getD (data.length - 2 + 1) []).map (·.2))])

def lineRows (columns : List String) (tracks : List Track) : Except Err (List Record) :=
  (tracks.mapM (lineRowsOf columns)).map List.flatten

/-- A field of all records of a track, as numbers -/
def column (t : Track) (name : String) : Except Err (List ℚ) := t.data.mapM fun r => numField r name

/-- The greatest of numbers, `numpy.max` -/
def greatest : List ℚ → Except Err ℚ
  | [] => .error .value
  | x :: l => .ok (l.foldl max x)

/-- The value of a field in the first record of a track, `track.Year[0]` -/
def first (t : Track) (name : String) : Except Err Value :=
  match t.data with
  | [] => .error .index
  | r :: _ => field r name

/-- Utilities/tracks2shp.py L251-271 (`tracks2line` with `dissolve`), one track: the row of the track; the least
pressure and the greatest wind speed are those of Utilities/loadData.py L755-791, 958-959. -/
def eventRow (missing : ℚ) (t : Track) : Except Err Record := do
  let ps ← column t "CentralPressure"
  let ws ← column t "WindSpeed"
  let es ← column t "TimeElapsed"
  let age ← greatest es
  let year ← first t "Year"
  let month ← first t "Month"
  let day ← first t "Day"
  let hour ← first t "Hour"
  let minute ← first t "Minute"
  let id ← first t "CycloneNumber"
  return row eventFields [id, year, month, day, hour, minute, .num age, .num (Dates.best min missing ps),
    .num (Dates.best max missing ws)]

/-- Utilities/tracks2shp.py L251-252: for tracks from netCDF files the row is that of the first record. -/
def eventRowNc (t : Track) : Except Err Record :=
  match t.data with
  | [] => .error .index
  | r :: _ => .ok (row tcrmFields ((dropFields ["Datetime"] r).map (·.2)))

/-- Utilities/tracks2shp.py L136-155 (`add_category`), all tracks -/
def addCategories (tracks : List Track) : Except Err (List Track) :=
  tracks.mapM fun t => (t.data.mapM addCategory).map Track.mk

end Tcrm.ShapeTable
