import Mathlib.Data.Rat.Floor
/-!
Specification for C181: doubles.
-/
namespace Tcrm.Binary64

/-- A double (of any exponent): a whole number of at most 53 binary digits times a power of two. -/
def Double (x : ℚ) : Prop := ∃ m e : ℤ, |m| ≤ 2 ^ 53 ∧ x = m * (2 : ℚ) ^ e

/-- A double nearest to `x`. -/
def Nearest (x d : ℚ) : Prop := Double d ∧ ∀ z, Double z → |d - x| ≤ |z - x|

end Tcrm.Binary64
