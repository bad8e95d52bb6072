import Mathlib.Probability.Distributions.Gaussian.Real
/-!
Distribution functions.
-/
namespace Tcrm.Variates
open MeasureTheory ProbabilityTheory

/-- Distribution function of the standard normal distribution -/
noncomputable def Spec.Phi (z : ℝ) : ℝ := (gaussianReal 0 1).real (Set.Iic z)

/-- Distribution function of the logistic distribution -/
noncomputable def Spec.logistic (mu sigma x : ℝ) : ℝ := 1 / (1 + Real.exp (-(x - mu) / sigma))

/-- Distribution function of `mu` plus `sigma` times a number whose logarithm is normal with standard deviation `xi` -/
noncomputable def Spec.lognormal (xi mu sigma x : ℝ) : ℝ := if x ≤ mu then 0 else Spec.Phi (Real.log ((x - mu) / sigma) / xi)

/-- `q u` is the value which a standard normal variable does not exceed with probability `u`. -/
def Spec.Quantile (q : ℝ → ℝ) : Prop := ∀ u, 0 < u → u < 1 → ∀ z, q u ≤ z ↔ u ≤ Spec.Phi z

end Tcrm.Variates
