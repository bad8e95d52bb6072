import Mathlib.Algebra.BigOperators.Group.Finset.Basic
import Mathlib.Analysis.SpecialFunctions.Integrals.Basic
/-!
L-moments as they are defined in the literature (Hosking 1990), for ordered samples and for
distributions given by their quantile function.
-/
namespace Tcrm.Evd

open Finset

/-- First sample L-moment of the ordered sample `x 0 ≤ ... ≤ x (n-1)`: the mean. -/
noncomputable def sampleL1 (n : ℕ) (x : ℕ → ℝ) : ℝ := (∑ i ∈ range n, x i) / n

/-- Second: half the mean of the range of two values. -/
noncomputable def sampleL2 (n : ℕ) (x : ℕ → ℝ) : ℝ :=
  1 / 2 * ((∑ j ∈ range n, ∑ i ∈ range j, (x j - x i)) / (n * (n - 1) / 2))

/-- Third: a third of the mean of largest - 2 middle + smallest of three values. -/
noncomputable def sampleL3 (n : ℕ) (x : ℕ → ℝ) : ℝ :=
  1 / 3 * ((∑ k ∈ range n, ∑ j ∈ range k, ∑ i ∈ range j, (x k - 2 * x j + x i)) /
    (n * (n - 1) * (n - 2) / 6))

/-- L-moments of the distribution with quantile function `Q`. -/
noncomputable def L1 (Q : ℝ → ℝ) : ℝ := ∫ u in (0 : ℝ)..1, Q u
noncomputable def L2 (Q : ℝ → ℝ) : ℝ := ∫ u in (0 : ℝ)..1, Q u * (2 * u - 1)
noncomputable def L3 (Q : ℝ → ℝ) : ℝ := ∫ u in (0 : ℝ)..1, Q u * (6 * u ^ 2 - 6 * u + 1)

/-- Quantile function of the generalised Pareto distribution (Hosking's sign of the shape); with shape 0 this is the
exponential distribution. -/
noncomputable def gpaQuantile (loc scale k : ℝ) (u : ℝ) : ℝ :=
  if k = 0 then loc - scale * Real.log (1 - u) else loc + scale * (1 - (1 - u) ^ k) / k

end Tcrm.Evd
