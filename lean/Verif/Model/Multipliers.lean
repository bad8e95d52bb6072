import Mathlib.Analysis.SpecialFunctions.Complex.Arg
import Mathlib.Data.Fin.Basic
import Mathlib.Logic.Function.Basic
import Verif.Model.Angles
/-!
Local wind from regional wind and directional multipliers, ProcessMultipliers/processMultipliers.py. Rasters are
functions of column and row; values are exact reals (the rasters hold single precision). GDAL's reprojection is not
modelled: the wind, the bearing and the multipliers are given at the pixels of the multiplier raster.
-/
namespace Tcrm.Multipliers
open Real

/-- ProcessMultipliers/processMultipliers.py L723-740 (`calculateBearing`) -/
noncomputable def calculateBearing (uu vv : ℝ) : ℝ :=
  180 / π * Angles.mod2pi (2 * π - (Complex.arg ⟨-uu, -vv⟩ - π / 2))

/-- ProcessMultipliers/processMultipliers.py L883-893 and L1080-1090: direction, smallest and (excluded) largest
bearing -/
def indices : List (String × ℚ × ℚ) := [
  ("n", 0, 22.5), ("ne", 22.5, 67.5), ("e", 67.5, 112.5), ("se", 112.5, 157.5), ("s", 157.5, 202.5),
  ("sw", 202.5, 247.5), ("w", 247.5, 292.5), ("nw", 292.5, 337.5), ("n", 337.5, 360)]

/-- ProcessMultipliers/processMultipliers.py L894 and L1079 -/
def bandNumbers : List ℕ := [2, 3, 1, 6, 5, 7, 8, 4, 2]

/-- ProcessMultipliers/processMultipliers.py L1168: the order of the bands, as documented in L20-22 -/
def dirns : List String := ["e", "n", "ne", "nw", "s", "se", "sw", "w"]

/-- ProcessMultipliers/processMultipliers.py L881, L896-907 and L1097-1102, at one pixel, the multiplier of round
`i` being `m4 i`: later rounds overwrite earlier ones. -/
noncomputable def localWind (wind bear : ℝ) (m4 : ℕ → ℝ) : ℝ :=
  indices.zipIdx.foldl (fun loc e => if (e.1.2.1 : ℝ) ≤ bear ∧ bear < e.1.2.2 then wind * m4 e.2 else loc) 0

/-- ProcessMultipliers/processMultipliers.py L899-901: with one file for each direction -/
def fromFiles (files : String → ℝ) (i : ℕ) : ℝ := files ((indices[i]?.map (·.1)).getD "")

/-- ProcessMultipliers/processMultipliers.py L902-903 (band numbers begin with 1) -/
def fromBands (bands : ℕ → ℝ) (i : ℕ) : ℝ := bands ((bandNumbers[i]?).getD 0)

/-- ProcessMultipliers/processMultipliers.py L1021-1034 and L1099: a list of bands in the order of `dirns`, each
from the file of the direction or the band of that position. -/
def fromList (bands : List ℝ) (i : ℕ) : ℝ := (bands[(bandNumbers[i]?).getD 0 - 1]?).getD 0

/-- The bands listed in ProcessMultipliers/processMultipliers.py L1023-1028 -/
def listedFiles (files : String → ℝ) : List ℝ := dirns.map files

/-- The bands listed in ProcessMultipliers/processMultipliers.py L1030-1034 -/
def listedBands (bands : ℕ → ℝ) : List ℝ := (List.range dirns.length).map fun k => bands (k + 1)

/-- ProcessMultipliers/processMultipliers.py L656-657 and L683-684: missing multipliers count as 1. -/
noncomputable def fill (nodata : Option ℝ) (x : ℝ) : ℝ := if nodata = some x then 1 else x

/-- A segment of the raster, ProcessMultipliers/processMultipliers.py L1045 -/
structure Seg where
  x : ℕ
  y : ℕ
  width : ℕ
  height : ℕ
  deriving DecidableEq

/-- `range(0, n, k)` for `k > 0` -/
def steps (n k : ℕ) : List ℕ := (List.range ((n + k - 1) / k)).map (· * k)

/-- ProcessMultipliers/processMultipliers.py L1040-1045 -/
def segments (cols rows size : ℕ) : List Seg :=
  (steps rows size).flatMap fun y =>
    (steps cols size).map fun x =>
      { x := x, y := y
        width := if x + size > cols then cols - x else size
        height := if y + size > rows then rows - y else size }

/-- ProcessMultipliers/processMultipliers.py L1036-1037; `math.ceil` of an exact quotient -/
def totalSegments (cols rows size : ℕ) : ℕ := ((cols + size - 1) / size) * ((rows + size - 1) / size)

/-- A raster: column, row -/
abbrev Raster := ℕ → ℕ → ℝ

/-- `ReadAsArray(x, y, width, height)`, indexed from the corner of the segment -/
def read (r : Raster) (s : Seg) : Raster := fun i j => r (s.x + i) (s.y + j)

/-- `WriteArray(local, x, y)` -/
def write (dst : Raster) (s : Seg) (block : Raster) : Raster := fun x y =>
  if s.x ≤ x ∧ x < s.x + s.width ∧ s.y ≤ y ∧ y < s.y + s.height then block (x - s.x) (y - s.y) else dst x y

/-- ProcessMultipliers/processMultipliers.py L1066-1107 (`processMultiplierSegment`): `m4 i` is the raster of the
multipliers of round `i`, missing ones replaced. -/
noncomputable def processSegment (wind bear : Raster) (m4 : ℕ → Raster) (dst : Raster) (s : Seg) : Raster :=
  write dst s fun i j => localWind (read wind s i j) (read bear s i j) fun k => read (m4 k) s i j

/-- ProcessMultipliers/processMultipliers.py L811-927 (`processMult`): the whole raster -/
noncomputable def wholeRaster (wind bear : Raster) (m4 : ℕ → Raster) : Raster :=
  fun x y => localWind (wind x y) (bear x y) fun k => m4 k x y

/-- Where a worker thread is, ProcessMultipliers/processMultipliers.py L1061-1063 -/
inductive Status where
  /-- at `segment_queue.empty()` -/
  | check
  /-- at `segment_queue.get()` -/
  | get
  /-- in `processMultiplierSegment` -/
  | work (s : Seg)
  /-- returned -/
  | done
  deriving DecidableEq

/-- The queue, the threads and the segments written so far -/
structure Pool (n : ℕ) where
  queue : List Seg
  threads : Fin n → Status
  written : List Seg

/-- ProcessMultipliers/processMultipliers.py L1048-1049, all segments queued. The two reprojections submitted before
(L990-995) end on their own and are left out. -/
def startPool (n : ℕ) (segs : List Seg) : Pool n := ⟨segs, fun _ => .check, []⟩

/-- One action of one thread. A thread at `get` with an empty queue waits. -/
inductive Step {n : ℕ} : Pool n → Pool n → Prop where
  /-- L1062, not empty -/
  | more (p : Pool n) (i : Fin n) (h : p.threads i = .check) (hq : p.queue ≠ []) :
      Step p { p with threads := Function.update p.threads i .get }
  /-- L1062, empty -/
  | stop (p : Pool n) (i : Fin n) (h : p.threads i = .check) (hq : p.queue = []) :
      Step p { p with threads := Function.update p.threads i .done }
  /-- L1063, `get` -/
  | take (p : Pool n) (i : Fin n) (s : Seg) (q : List Seg) (h : p.threads i = .get) (hq : p.queue = s :: q) :
      Step p { p with queue := q, threads := Function.update p.threads i (.work s) }
  /-- L1063, the segment is written (under a lock, L1103-1105) -/
  | finish (p : Pool n) (i : Fin n) (s : Seg) (h : p.threads i = .work s) :
      Step p { p with threads := Function.update p.threads i .check, written := p.written ++ [s] }

/-- `q` can be reached from `p` in `k` actions. -/
inductive Run {n : ℕ} : ℕ → Pool n → Pool n → Prop where
  | zero (p : Pool n) : Run 0 p p
  | next {k : ℕ} {p q r : Pool n} : Run k p q → Step q r → Run (k + 1) p r

/-- All threads have returned, so that `futures.wait` (L1051) returns. -/
def Finished {n : ℕ} (p : Pool n) : Prop := ∀ i, p.threads i = .done

/-- The output raster after the writes so far -/
noncomputable def output (wind bear : Raster) (m4 : ℕ → Raster) (init : Raster) (written : List Seg) : Raster :=
  written.foldl (processSegment wind bear m4) init

/-- ProcessMultipliers/processMultipliers.py L607-624 (`createRaster`) and L836, L957: the data row (counted as in the
array passed to `processMult`, of `rows` rows) shown at row `r` of the raster: `np.flipud` and no reversal as
`dy > 0`. -/
def shownRow (rows r : ℕ) : ℕ := rows - 1 - r

/-- The southern edge of row `r` of that raster, L608 and L621: the origin is the last latitude, and `dy` is
positive. -/
def southEdge (lat : ℕ → ℚ) (rows : ℕ) (delta : ℚ) (r : ℕ) : ℚ := lat (rows - 1) + r * delta

end Tcrm.Multipliers
