import Mathlib.Analysis.Calculus.Deriv.Basic
/-!
Gradient wind balance, for C152.
-/
namespace Tcrm.Balance

/-- At the distance `R` from the centre, the wind `v` (positive: anticlockwise) balances the pressure `P`: centripetal
acceleration and Coriolis acceleration add up to the pressure force on unit mass.  All quantities in SI units. -/
def Balanced (f rho : ℝ) (P : ℝ → ℝ) (R v : ℝ) : Prop :=
  ∃ g, HasDerivAt P g R ∧ v ^ 2 / R + f * v = g / rho

end Tcrm.Balance
