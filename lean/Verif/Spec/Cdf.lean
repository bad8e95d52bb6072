import Mathlib.Algebra.BigOperators.Group.Finset.Basic
/-!
Specification vocabulary for the two-dimensional CDF.
-/
namespace Tcrm.Cdf

/-- The total density at or below `(i, j)`. -/
def mass {K : Type} [AddCommMonoid K] (z : Nat → Nat → K) (i j : Nat) : K :=
  ∑ a ∈ Finset.range (i + 1), ∑ b ∈ Finset.range (j + 1), z a b

end Tcrm.Cdf
