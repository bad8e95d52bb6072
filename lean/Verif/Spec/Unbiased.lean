import Mathlib.MeasureTheory.Integral.IntervalIntegral.Basic
/-!
L-moments of any order of a distribution (Hosking 1990).
-/
namespace Tcrm.Unbiased
open Finset

/-- L-moment number `m + 1` of the distribution with quantile function `Q`: the integral with the shifted Legendre polynomial -/
noncomputable def Spec.lmoment (Q : ℝ → ℝ) (m : ℕ) : ℝ :=
  ∫ u in (0 : ℝ)..1, Q u * ∑ k ∈ range (m + 1), (-1) ^ (m + k) * (m.choose k * (m + k).choose k) * u ^ k

/-- A quantile function with a mean -/
structure Spec.Quantile (Q : ℝ → ℝ) : Prop where
  mono : MonotoneOn Q (Set.Ioo 0 1)
  mean : MeasureTheory.IntegrableOn Q (Set.Ioo 0 1)

/-- `n` values drawn from the distribution with quantile function `Q` by the random numbers `U` -/
def Spec.values {Ω : Type} (Q : ℝ → ℝ) (U : ℕ → Ω → ℝ) (n : ℕ) (ω : Ω) : List ℝ := (List.range n).map fun i => Q (U i ω)

/-- The list `data` holds the values `v` in ascending order. -/
def Spec.Ordered (v data : List ℝ) : Prop := data.Perm v ∧ data.Pairwise (· ≤ ·)

/-- The statistic `l` exists on average, and its expected value is `x`. -/
def Spec.Expected {Ω : Type} [MeasurableSpace Ω] (P : MeasureTheory.Measure Ω) (l : Ω → ℝ) (x : ℝ) : Prop :=
  MeasureTheory.Integrable l P ∧ ∫ ω, l ω ∂P = x

end Tcrm.Unbiased
