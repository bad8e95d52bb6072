import Mathlib.Data.Rat.Floor
/-!
Vocabulary for C174.
-/
namespace Tcrm.Figures

/-- Lines at consecutive multiples of `dl` -/
def ConsecutiveMultiples (dl : ℚ) (l : List ℚ) : Prop :=
  ∃ k : ℤ, ∀ (i : ℕ) (x : ℚ), l[i]? = some x → x = (k + i : ℤ) * dl

/-- The lines reach from one end to the other, with none to spare. -/
def Spans (l : List ℚ) (lo hi dl : ℚ) : Prop :=
  ∃ a b, l.head? = some a ∧ l.getLast? = some b ∧ a ≤ lo ∧ lo < a + dl ∧ hi ≤ b ∧ b < hi + dl

end Tcrm.Figures
