import Mathlib.Data.Real.Basic
import Mathlib.Algebra.BigOperators.Group.Finset.Basic
import Verif.Model.Cdf
/-!
Estimated densities on a grid.
-/
namespace Tcrm.Draws
open Tcrm.Cdf

/-- Sum of a density over the whole grid -/
noncomputable def Spec.total (z : Grid ℝ) : ℝ := ∑ i ∈ Finset.range z.cols, ∑ j ∈ Finset.range z.rows, z.val j i

/-- Sum of the densities `y` of those values `x` which are less than `limit` -/
noncomputable def Spec.totalBelow (x y : List ℝ) (limit : ℝ) : ℝ :=
  (((x.zip y).filter fun p => decide (p.1 < limit)).map (·.2)).sum

open Classical in
/-- The share of those among the first `N` storms for which `A` holds -/
noncomputable def Spec.share (A : ℕ → Prop) (N : ℕ) : ℝ := ((Finset.range N).filter fun k => A k).card / N

/-- The numbers `first k` and `second k` in the sequence of random numbers are used for storm `k`; none is used twice. -/
structure Spec.Distinct (first second : ℕ → ℕ) : Prop where
  once : Function.Injective first
  once' : Function.Injective second
  both : ∀ k l, first k ≠ second l

end Tcrm.Draws
