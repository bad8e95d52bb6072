import Mathlib.Data.Rat.Floor
import Mathlib.Algebra.Order.Field.Basic
/-!
Vocabulary for C132: a number as it comes back from a file.
-/
namespace Tcrm.TextFiles

/-- `y` is `x` to two decimals: missing stays missing, and a number changes by at most 0.005. -/
def Near : Option ℚ → Option ℚ → Prop
  | none, none => True
  | some x, some y => |x - y| ≤ 1 / 200 ∧ ∃ k : ℤ, y = k / 100
  | _, _ => False

end Tcrm.TextFiles
