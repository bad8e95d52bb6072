import Mathlib.Analysis.SpecialFunctions.Log.Basic
import Mathlib.Analysis.SpecialFunctions.Trigonometric.Basic
/-!
Specification vocabulary for the distribution of storm sizes.
-/
namespace Tcrm.SizeTable
open Real

/-- The density of the log-normal distribution: that of a radius whose logarithm has a normal distribution with mean `mu`
and standard deviation `sig`. -/
noncomputable def logNormal (mu sig x : ℝ) : ℝ :=
  1 / (x * sig * √(2 * π)) * exp (-(1 / 2) * ((log x - mu) / sig) ^ 2)

/-- The log-normal distribution of mean `mean`, in terms of the standard deviation of the logarithm; that the mean is
right is part of C178. -/
noncomputable def sizes (mean sig x : ℝ) : ℝ := logNormal (log mean - sig ^ 2 / 2) sig x

/-- The total weight of the radii of 1, 2, …, `n` km. -/
noncomputable def weight (mean sig : ℝ) (n : ℕ) : ℝ := ∑ i ∈ Finset.range n, sizes mean sig ((i : ℝ) + 1)

end Tcrm.SizeTable
