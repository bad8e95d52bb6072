import Mathlib.Algebra.Order.Ring.Rat
import Mathlib.Data.List.Dedup
/-!
Seasonal mean of the sea level pressure, MSLP/mslp_seasonal_clim.py L44-77. Values are exact rationals (single precision in
the code). A file is its axes and its values by month, row and column.
-/
namespace Tcrm.SeasonalPressure

/-- The monthly means of a file: axes, number of months, and the value by month (from 0), row and column -/
structure Monthly where
  lon : List ℚ
  lat : List ℚ
  months : ℕ
  value : ℕ → ℕ → ℕ → ℚ

inductive Err where
  | notFound | index
  deriving DecidableEq

/-- MSLP/mslp_seasonal_clim.py L47-52: the file read, out of the one given and the one that comes with the program -/
def chooseFile {P : Type} (isFile : P → Bool) (given own : P) : Except Err P :=
  if isFile given then .ok given else if isFile own then .ok own else .error .notFound

/-- An index of an array of length `n`, as numpy takes it: negative ones count from the end. -/
def npIndex (n : ℕ) (i : ℤ) : Except Err ℕ :=
  if 0 ≤ i ∧ i < n then .ok i.toNat else if -(n : ℤ) ≤ i ∧ i < 0 then .ok (i + n).toNat else .error .index

/-- An object of the class: the axes, and the mean by row and column (`none` for nan) -/
structure Grid where
  lon : List ℚ
  lat : List ℚ
  mean : ℕ → ℕ → Option ℚ

/-- MSLP/mslp_seasonal_clim.py L53-64 (`__init__`). `set` (L53) keeps each month once; `flipud` (L64) reverses the rows.
Without any month 0 is divided by 0. -/
def seasonal (f : Monthly) (selected : List ℤ) : Except Err Grid := do
  let idx ← selected.dedup.mapM fun month => npIndex f.months (month - 1)
  return ⟨f.lon, f.lat, fun j i =>
    if idx = [] then none
    else some ((idx.map fun k => f.value k (f.lat.length - 1 - j) i).sum / idx.length)⟩

/-- `searchsorted` for an increasing array -/
def searchsorted (l : List ℚ) (x : ℚ) : ℕ := (l.takeWhile (· < x)).length

/-- MSLP/mslp_seasonal_clim.py L66-74 (`sampleGrid`) -/
def sample (g : Grid) (lon lat : ℚ) : Except Err (Option ℚ) := do
  let i ← npIndex g.lon.length ((searchsorted g.lon lon : ℤ) - 1)
  let j ← npIndex g.lat.length ((searchsorted g.lat lat : ℤ) - 1)
  return g.mean j i

end Tcrm.SeasonalPressure
