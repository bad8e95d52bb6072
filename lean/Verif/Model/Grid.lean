import Mathlib.Data.Rat.Floor
/-!
Looking up positions in grids: Utilities/maputils.py (`find_index`, `find_nearest`) and Utilities/grid.py
(`grdRead`, `SampleGrid`). Exact numbers.
-/
namespace Tcrm.Grid

inductive Err where
  | valueError
  | indexError
  deriving DecidableEq

/-- `array.argmin()` after `abs(array - value)`: the first index with the smallest distance; `best` is
the index and distance so far. -/
def argminFrom (v : ℚ) : List ℚ → ℕ → ℕ × ℚ → ℕ
  | [], _, best => best.1
  | x :: l, i, best => argminFrom v l (i + 1) (if |x - v| < best.2 then (i, |x - v|) else best)

/-- Utilities/maputils.py L687-719 (`find_index`) for a value that is a number. `max` of an empty array
raises ValueError. -/
def findIndex (a : List ℚ) (v : ℚ) : Except Err ℕ :=
  match a with
  | [] => .error .valueError
  | x :: l =>
    if v > l.foldl max x then .ok ((x :: l).length - 1)
    else if v < l.foldl min x then .ok 0
    else .ok (argminFrom v l 1 (0, |x - v|))

/-- Utilities/maputils.py L721-753 (`find_nearest`) -/
def findNearest (a : List ℚ) (v : ℚ) : Except Err ℚ :=
  match findIndex a v with
  | .error e => .error e
  | .ok i => match a[i]? with
    | none => .error .indexError
    | some x => .ok x

/-- The binary search of `numpy.searchsorted(side='left')`: between `lo` and `hi`, with at most `fuel`
steps. `below i` is `array[i] < value`. -/
def bisect (below : ℕ → Bool) : ℕ → ℕ → ℕ → ℕ
  | 0, lo, _ => lo
  | fuel + 1, lo, hi =>
    if lo < hi then
      if below ((lo + hi) / 2) then bisect below fuel ((lo + hi) / 2 + 1) hi
      else bisect below fuel lo ((lo + hi) / 2)
    else lo

/-- `array.searchsorted(value)`; the number of steps is at most the length. -/
def searchsorted (a : List ℚ) (v : ℚ) : ℕ := bisect (fun i => decide (a.getD i 0 < v)) a.length 0 a.length

/-- `numpy.mod(x, 360.)` -/
def mod360 (x : ℚ) : ℚ := x - 360 * ⌊x / 360⌋

/-- A gridded file as read: longitudes, latitudes, rows of data (`none` is NaN). -/
structure Grd where
  lon : List ℚ
  lat : List ℚ
  data : List (List (Option ℚ))

/-- Header of an ascii grid file. -/
structure Header where
  ncols : ℕ
  nrows : ℕ
  xll : ℚ
  yll : ℚ
  cellsize : ℚ
  nodata : ℚ

/-- Utilities/grid.py L172-213 (`grdRead` for an ascii file with the six header lines and `nrows` lines
of `ncols` numbers each): longitudes from the west, latitudes from the north. -/
def grdRead (h : Header) (lines : List (List ℚ)) : Grd :=
  { lon := (List.range h.ncols).map fun i : ℕ => (i : ℚ) * h.cellsize + h.xll
    lat := ((List.range h.nrows).map fun i : ℕ => (i : ℚ) * h.cellsize + h.yll).reverse
    data := lines.map fun row => row.map fun x => if x = h.nodata then none else some x }

/-- Utilities/grid.py L220-269 (`SampleGrid`): the rows are turned over (L246), the latitudes are not.
Indices of `searchsorted` are never negative. -/
def sampleGrid (g : Grd) (lon lat : ℚ) : Except Err (Option ℚ) :=
  let grid := g.data.reverse
  match grid[searchsorted g.lat lat]? with
  | none => .error .indexError
  | some row => match row[searchsorted g.lon (mod360 lon)]? with
    | none => .error .indexError
    | some x => .ok x

end Tcrm.Grid
