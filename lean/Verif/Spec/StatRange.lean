import Mathlib.Data.Rat.Defs
import Mathlib.Algebra.Order.Ring.Rat
/-!
Vocabulary of C208.
-/
namespace Tcrm.StatRange.Spec

/-- `r` is the first of `a`, `a + s`, `a + 2s`, … that is not before `b`. -/
def FirstFrom (a b s r : ℚ) : Prop :=
  (∃ n : ℕ, r = a + n * s) ∧ b ≤ r ∧ ∀ n : ℕ, b ≤ a + n * s → r ≤ a + n * s

/-- `r` is the first of `b`, `b - s`, `b - 2s`, … that is not after `a`. -/
def FirstBelow (a b s r : ℚ) : Prop :=
  (∃ n : ℕ, r = b - n * s) ∧ r ≤ a ∧ ∀ n : ℕ, b - n * s ≤ a → b - n * s ≤ r

end Tcrm.StatRange.Spec
