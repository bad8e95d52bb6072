import Verif.Model.Stations
import Mathlib.Data.List.Basic
/-!
Multipliers applied to all the time series of a run: `process_timeseries` (Utilities/tsmultipliers.py).  The reader of
the library pyshp gives the names of the fields and the values of the records; numbers are exact.  Paths are relative to
the folder of the series (`<output>/process/timeseries`).
-/
namespace Tcrm.LocalSeries

open Tcrm.Stations (Rec Multipliers applyFactor maxRec minRec)

inductive Err where
  | valueError
  | indexError
  deriving DecidableEq, Repr

/-- The station file: names of the fields (without the deletion flag, Utilities/tsmultipliers.py L159) and records -/
structure Shape (V : Type) where
  fields : List String
  records : List (List V)

/-- The series by path, and the two tables `local/local_maxima.csv` and `local/local_minima.csv` -/
structure Files where
  series : List Char → Option (List (Rec ℚ))
  maxima : Option (List (Rec ℚ))
  minima : Option (List (Rec ℚ))

/-- Utilities/tsmultipliers.py L179: the series of a station -/
def inputFile (id : List Char) : List Char := ['t', 's', '.'] ++ id ++ ['.', 'c', 's', 'v']

/-- Utilities/tsmultipliers.py L145, L180: the series written for a station -/
def outputFile (id : List Char) : List Char :=
  ['l', 'o', 'c', 'a', 'l', '/', 't', 's', '.'] ++ id ++ ['.', 'c', 's', 'v']

/-- Utilities/tsmultipliers.py L66-112: a record with the multipliers applied.  `dir` gives the direction from the
components (L76-77, in degrees); the direction that was read is not used. -/
def localise (dir : ℚ → ℚ → ℚ) (m : Multipliers) (r : Rec ℚ) : Rec ℚ :=
  let a := applyFactor m r.speed (dir r.uu r.vv)
  { r with speed := a.1, bearing := a.2 }

/-- Utilities/tsmultipliers.py L48-123 (`tsmultiply`): the new series, and its records with the largest gust and with the
smallest pressure; `argmax` of no values raises ValueError (L114-115, before anything is written).
(A series of one record is read as an array without an axis; this is not modelled.) -/
def tsmultiply (dir : ℚ → ℚ → ℚ) (m : Multipliers) (rows : List (Rec ℚ)) :
    Except Err (List (Rec ℚ) × Rec ℚ × Rec ℚ) :=
  match rows.map (localise dir m) with
  | [] => .error .valueError
  | r :: l => .ok (r :: l, maxRec r l, minRec r l)

/-- Utilities/tsmultipliers.py L156, L172-175: the names of the fields of the multipliers, in the order in which
`tsmultiply` takes them (L79) -/
def directionFields : List String := ["m4_n", "m4_ne", "m4_e", "m4_se", "m4_s", "m4_sw", "m4_w", "m4_nw"]

/-- `field_names.index(name)` -/
def fieldIndex (fields : List String) (name : String) : Except Err ℕ :=
  match fields.idxOf? name with
  | none => .error .valueError
  | some k => .ok k

/-- `float(record[i])`; `num` is the conversion of a value -/
def number {V : Type} (num : V → Option ℚ) (record : List V) (i : ℕ) : Except Err ℚ :=
  match record[i]? with
  | none => .error .indexError
  | some v => match num v with
    | none => .error .valueError
    | some x => .ok x

/-- Utilities/tsmultipliers.py L79, L183: the eight multipliers of a record -/
def multipliers {V : Type} (num : V → Option ℚ) (record : List V) (indexes : List ℕ) : Except Err Multipliers :=
  match indexes.mapM (number num record) with
  | .error e => .error e
  | .ok [n, ne, e, se, s, sw, w, nw] => .ok ⟨n, ne, e, se, s, sw, w, nw⟩
  | .ok _ => .error .valueError

/-- Utilities/tsmultipliers.py L177-189: one record of the loop.  The answer is the new files and the rows for the
tables, `none` if there is no series for the station. -/
def step {V : Type} (dir : ℚ → ℚ → ℚ) (text : V → List Char) (num : V → Option ℚ) (key : ℕ) (indexes : List ℕ)
    (series : List Char → Option (List (Rec ℚ))) (record : List V) :
    Except Err (Option ((List Char → Option (List (Rec ℚ))) × Rec ℚ × Rec ℚ)) :=
  match record[key]? with
  | none => .error .indexError
  | some v => match series (inputFile (text v)) with
    | none => .ok none
    | some rows => match multipliers num record indexes with
      | .error e => .error e
      | .ok m => match tsmultiply dir m rows with
        | .error e => .error e
        | .ok (new, mx, mn) =>
          .ok (some (fun p => if p = outputFile (text v) then some new else series p, mx, mn))

/-- Utilities/tsmultipliers.py L177-189: the loop over the records, and what has been written when it ends -/
def loop {V : Type} (dir : ℚ → ℚ → ℚ) (text : V → List Char) (num : V → Option ℚ) (key : ℕ) (indexes : List ℕ) :
    List (List V) → (List Char → Option (List (Rec ℚ))) → List (Rec ℚ) → List (Rec ℚ) →
      (List Char → Option (List (Rec ℚ))) × Except Err (List (Rec ℚ) × List (Rec ℚ))
  | [], series, mx, mn => (series, .ok (mx, mn))
  | record :: rest, series, mx, mn => match step dir text num key indexes series record with
    | .error e => (series, .error e)
    | .ok none => loop dir text num key indexes rest series mx mn
    | .ok (some (series', x, n)) => loop dir text num key indexes rest series' (mx ++ [x]) (mn ++ [n])

/-- Utilities/tsmultipliers.py L126-199 (`process_timeseries`): the files after it, and its error if it raises one.
`keyName` is the field `StationID` of the section `Timeseries`. -/
def processTimeseries {V : Type} (dir : ℚ → ℚ → ℚ) (text : V → List Char) (num : V → Option ℚ) (sf : Shape V)
    (keyName : String) (f : Files) : Files × Option Err :=
  match fieldIndex sf.fields keyName with
  | .error e => (f, some e)
  | .ok key => match directionFields.mapM (fieldIndex sf.fields) with
    | .error e => (f, some e)
    | .ok indexes => match loop dir text num key indexes sf.records f.series [] [] with
      | (series, .error e) => ({ f with series := series }, some e)
      | (series, .ok (mx, mn)) => (⟨series, some mx, some mn⟩, none)

end Tcrm.LocalSeries
