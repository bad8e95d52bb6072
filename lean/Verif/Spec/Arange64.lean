import Mathlib.Data.Rat.Floor
/-!
Specification for C187: regular grids.
-/
namespace Tcrm.Arange64

/-- A whole number of at most 24 binary digits, divided by a power of two: whole degrees, halves, quarters of a degree. -/
def Fine (k : ℕ) (x : ℚ) : Prop := ∃ n : ℤ, |n| ≤ 2 ^ 24 ∧ x = n / 2 ^ k

/-- The points `a`, `a + s`, `a + 2s`, … that come before `b`, in order. -/
def Steps (a b s : ℚ) (l : List ℚ) : Prop :=
  (∀ (i : ℕ) (h : i < l.length), l[i] = a + i * s) ∧
  ∀ i : ℕ, i < l.length ↔ (0 < s ∧ a + i * s < b) ∨ (s < 0 ∧ b < a + i * s)

end Tcrm.Arange64
