import Mathlib.Analysis.SpecialFunctions.Trigonometric.Basic
import Mathlib.Algebra.Order.ToIntervalMod
/-!
Angles, Utilities/maputils.py, over the exact reals.
-/
namespace Tcrm.Angles

/-- `np.mod(x, 2 * pi)`: the remainder with the sign of the divisor. -/
noncomputable def mod2pi (x : ℝ) : ℝ := x - ⌊x / (2 * Real.pi)⌋ * (2 * Real.pi)

/-- Utilities/maputils.py L435-450 (`bearing2theta`) -/
noncomputable def bearing2theta (b : ℝ) : ℝ := mod2pi (Real.pi / 2 - b)

/-- Utilities/maputils.py L452-467 (`theta2bearing`) -/
noncomputable def theta2bearing (t : ℝ) : ℝ := mod2pi (2 * Real.pi - (t - Real.pi / 2))

end Tcrm.Angles
