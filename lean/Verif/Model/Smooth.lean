import Mathlib.Analysis.SpecialFunctions.Exp
import Mathlib.Data.Int.Interval
/-!
Smoothing of maps (Utilities/smooth.py), used for the maps of the hazard.
-/
namespace Tcrm.Smooth
open Finset

/-- The index `convolve2d(…, boundary='symm')` reads at position `k` of an axis of length `n`: the axis is
continued by reflection, without end. -/
def reflect (n : ℕ) (k : ℤ) : ℕ :=
  let r := (k % (2 * n : ℤ)).toNat
  if r < n then r else 2 * n - 1 - r

/-- Utilities/smooth.py L17-30 (`gaussKern`) before the division by the sum -/
noncomputable def weight (size : ℕ) (x y : ℤ) : ℝ :=
  Real.exp (-((x : ℝ) ^ 2 / size + (y : ℝ) ^ 2 / size))

/-- `g.sum()` -/
noncomputable def total (size : ℕ) : ℝ :=
  ∑ x ∈ Icc (-(size : ℤ)) size, ∑ y ∈ Icc (-(size : ℤ)) size, weight size x y

/-- Utilities/smooth.py L32-45 (`smooth`) at row `j` and column `i` of a map with `rows` rows and `cols`
columns: `convolve2d(im, g, mode='same', boundary='symm')`.  (For `size` 0 the kernel is NaN.) -/
noncomputable def smooth (rows cols : ℕ) (im : ℕ → ℕ → ℝ) (size : ℕ) (j i : ℕ) : ℝ :=
  ∑ x ∈ Icc (-(size : ℤ)) size, ∑ y ∈ Icc (-(size : ℤ)) size,
    weight size x y / total size * im (reflect rows (j - x)) (reflect cols (i - y))

end Tcrm.Smooth
