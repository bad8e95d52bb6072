import Mathlib.Data.Rat.Defs
import Mathlib.Algebra.Order.Ring.Unbundled.Rat
/-!
Specification vocabulary for grid cells.
-/
namespace Tcrm.Cells

/-- Column of a longitude: `k` with `xMin + k·dx ≤ lon < xMin + (k+1)·dx`. -/
def InColumn (xMin dx lon : ℚ) (k : ℕ) : Prop := xMin + k * dx ≤ lon ∧ lon < xMin + (k + 1) * dx

/-- Row of a latitude, counted from the north: `l` with `yMax - (l+1)·dy < lat ≤ yMax - l·dy`. -/
def InRow (yMax dy lat : ℚ) (l : ℕ) : Prop := yMax - (l + 1) * dy < lat ∧ lat ≤ yMax - l * dy

end Tcrm.Cells
