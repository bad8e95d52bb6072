import Mathlib.Algebra.BigOperators.Group.Finset.Basic
import Mathlib.Data.Nat.Choose.Basic
import Mathlib.Data.Real.Basic
/-!
Sample L-moments of any order, by the unbiased probability weighted moments (Hosking 1990).
-/
namespace Tcrm.Evd

open Finset

/-- Unbiased sample probability weighted moment `b_k` of the ordered sample `x 0 ≤ ... ≤ x (n-1)`. -/
noncomputable def weightedMoment (n : ℕ) (x : ℕ → ℝ) (k : ℕ) : ℝ :=
  (∑ i ∈ range n, (i.choose k : ℝ) / ((n - 1).choose k : ℝ) * x i) / n

/-- Sample L-moment number `m + 1`. -/
noncomputable def sampleL (n : ℕ) (x : ℕ → ℝ) (m : ℕ) : ℝ :=
  ∑ k ∈ range (m + 1), (-1) ^ (m + k) * (m.choose k * (m + k).choose k) * weightedMoment n x k

end Tcrm.Evd
