import Mathlib.Data.Rat.Floor
import Mathlib.Algebra.Order.Field.Basic
/-!
Sampling of the climatology of the environmental pressure (Utilities/interp3d.py, SamplePressure of
TrackGenerator/TrackGenerator.py, ltmPressure of Utilities/loadData.py).
-/
namespace Tcrm.Climate

/-- `map_coordinates(…, mode='wrap')` of scipy, called at Utilities/interp3d.py L64: an index outside
`0 … n - 1` is moved by multiples of `n - 1` (ni_interpolation.c, NI_EXTEND_WRAP). -/
def wrap (n : ℕ) (x : ℚ) : ℚ :=
  if x < 0 then (if n ≤ 1 then 0 else x + (n - 1) * ((⌊-x / (n - 1)⌋ : ℤ) + 1))
  else if (n : ℚ) - 1 < x then (if n ≤ 1 then 0 else x - (n - 1) * (⌊x / (n - 1)⌋ : ℤ))
  else x

/-- Utilities/interp3d.py L61-62 -/
def index (n : ℕ) (c o s : ℚ) : ℚ := n * (c - o) / s

/-- The array of a file (time, latitude, longitude): its three lengths and the interpolated value at
indices within them.  (`spline_filter` and the splines of scipy are not modelled: `value` is any
function of three indices.  Conversion of units: C24.) -/
structure File where
  days : ℕ
  rows : ℕ
  cols : ℕ
  value : ℚ → ℚ → ℚ → ℚ

/-- Utilities/interp3d.py L18-67 -/
def interp3d (f : File) (scale offset : ℚ × ℚ × ℚ) (c : ℚ × ℚ × ℚ) : ℚ :=
  f.value (wrap f.days (index f.days c.1 offset.1 scale.1))
    (wrap f.rows (index f.rows c.2.1 offset.2.1 scale.2.1))
    (wrap f.cols (index f.cols c.2.2 offset.2.2 scale.2.2))

/-- TrackGenerator/TrackGenerator.py L185-202 (`SamplePressure.get_pressure`) -/
def getPressure (f : File) (day lat lon : ℚ) : ℚ :=
  interp3d f (365, 180, 360) (0, -90, 0) (day, lat, lon)

/-- Utilities/loadData.py L622-664 (`ltmPressure`) for one observation; `np.modf(time)[0]` is the
fraction of `time` (times are not negative). -/
def ltmPressure (f : File) (jday : ℕ) (time lat lon : ℚ) : ℚ :=
  interp3d f (365, 180, 360) (0, -90, 0) (jday + (time - (⌊time⌋ : ℤ)), lat, lon)

end Tcrm.Climate
