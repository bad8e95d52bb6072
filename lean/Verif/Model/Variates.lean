import Mathlib.Analysis.SpecialFunctions.Log.Basic
/-!
Random variates, Utilities/tcrandom.py, from a number `u1` that the generator delivers (`random()`, at least 0 and less than 1). Real
numbers: rounding is not modelled.
-/
namespace Tcrm.Variates

/-- Exceptions -/
inductive Err where
  | valueError
  | zeroDivision
  deriving DecidableEq

/-- Utilities/tcrandom.py L53-66 (`logisticvariate`); `math.log` of a number that is not positive is a ValueError. -/
noncomputable def logisticvariate (mu sigma u1 : ℝ) : Except Err ℝ :=
  if sigma ≤ 0 then .error .valueError
  else if 1 - u1 = 0 then .error .zeroDivision
  else if u1 / (1 - u1) ≤ 0 then .error .valueError
  else .ok (mu + sigma * Real.log (u1 / (1 - u1)))

/-- Utilities/tcrandom.py L102-119 (`lognormvariate`); `ndtri` is the function of scipy (infinite, and not modelled, for `u1 = 0`, which
gives `mu`). -/
noncomputable def lognormvariate (ndtri : ℝ → ℝ) (xi mu sigma u1 : ℝ) : Except Err ℝ :=
  if xi ≤ 0 then .error .valueError
  else if sigma ≤ 0 then .error .valueError
  else if u1 = 0 then .ok mu
  else .ok (mu + sigma * Real.exp (xi * ndtri u1))

end Tcrm.Variates
