import Mathlib.Data.Real.Basic
/-!
The eight compass directions, and the bearings nearest to each.
-/
namespace Tcrm.Spec

/-- The direction of each name, degrees clockwise from north -/
def compass : List (String × ℚ) := [
  ("n", 0), ("ne", 45), ("e", 90), ("se", 135), ("s", 180), ("sw", 225), ("w", 270), ("nw", 315)]

/-- The bearing `b` is nearer to the direction `c` than to its neighbours at 45 degrees to both sides (half way, it
belongs to the next direction clockwise). -/
def Nearest (c : ℚ) (b : ℝ) : Prop := ∃ m : ℤ, -22.5 ≤ b - c - 360 * m ∧ b - c - 360 * m < 22.5

end Tcrm.Spec
