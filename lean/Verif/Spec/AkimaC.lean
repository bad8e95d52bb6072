import Mathlib.Algebra.Order.Field.Basic
import Mathlib.Algebra.Order.Group.Abs
/-!
Specification vocabulary for C176: velocities between observations.
-/
namespace Tcrm.AkimaC

variable {K : Type} [Field K] [LinearOrder K]

/-- The observations are at least `10⁻¹²` apart in time. -/
def Apart (x : List K) : Prop := ∀ (i : ℕ) (a b : K), x[i]? = some a → x[i + 1]? = some b → 1 / 10 ^ 12 ≤ b - a

/-- `m k` is the mean velocity between observations `k` and `k + 1`; there are two more on either side, continuing the
change of velocity at the ends. -/
structure MeanVelocities (x y : List K) (m : ℤ → K) : Prop where
  inside : ∀ k : ℕ, k + 1 < x.length → m k = (y.getD (k + 1) 0 - y.getD k 0) / (x.getD (k + 1) 0 - x.getD k 0)
  before : m (-1) - m 0 = m 0 - m 1 ∧ m (-2) - m (-1) = m (-1) - m 0
  after : m (x.length - 1) - m (x.length - 2) = m (x.length - 2) - m (x.length - 3) ∧
    m x.length - m (x.length - 1) = m (x.length - 1) - m (x.length - 2)

/-- How much the velocity changes one observation after and one before observation `k`. -/
def change (m : ℤ → K) (k : ℤ) : K := |m (k + 1) - m k| + |m (k - 1) - m (k - 2)|

end Tcrm.AkimaC
