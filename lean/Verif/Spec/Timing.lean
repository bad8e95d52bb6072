import Mathlib.Data.Nat.Notation
import Mathlib.Data.Int.Notation
/-!
What a duration in hours, minutes and seconds says.
-/
namespace Tcrm.Timing

/-- A text of decimal digits and the number it denotes -/
def Spec.Digits (d : List Char) (n : ℕ) : Prop :=
  d ≠ [] ∧ (∀ c ∈ d, c.isDigit = true) ∧ n = Nat.ofDigitChars 10 d 0

/-- `text` is a number of hours of at least two characters, perhaps negative, and the minutes and the seconds from 00 to
59 after it, for `n` seconds in all. -/
def Spec.Shows (text : List Char) (n : ℤ) : Prop :=
  ∃ (sign hh mm ss : List Char) (h m s : ℕ), Digits hh h ∧ Digits mm m ∧ Digits ss s ∧
    2 ≤ (sign ++ hh).length ∧ mm.length = 2 ∧ ss.length = 2 ∧ m < 60 ∧ s < 60 ∧
    text = sign ++ hh ++ ':' :: mm ++ ':' :: ss ∧
    ((sign = [] ∧ n = h * 3600 + m * 60 + s) ∨ (sign = ['-'] ∧ n = -h * 3600 + m * 60 + s))

end Tcrm.Timing
