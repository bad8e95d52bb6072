import Mathlib.Data.Nat.Notation
/-!
The Gregorian calendar, stated without the model.
-/
namespace Tcrm.Dates

/-- A multiple of four that is not a multiple of a hundred, or a multiple of four hundred -/
def LeapYear (y : ℕ) : Prop := y % 4 = 0 ∧ (y % 100 ≠ 0 ∨ y % 400 = 0)

instance (y : ℕ) : Decidable (LeapYear y) := by unfold LeapYear; infer_instance

/-- The lengths of the months -/
def lengths (leap : Bool) : List ℕ := [31, if leap then 29 else 28, 31, 30, 31, 30, 31, 31, 30, 31, 30, 31]

/-- There is a day `d` in month `m` (1 to 12). -/
def RealDay (leap : Bool) (m d : ℕ) : Prop := 1 ≤ m ∧ m ≤ 12 ∧ 1 ≤ d ∧ d ≤ (lengths leap).getD (m - 1) 0

instance (leap : Bool) (m d : ℕ) : Decidable (RealDay leap m d) := by unfold RealDay; infer_instance

/-- The days before month `m` in a year without February 29 -/
def before (m : ℕ) : ℕ := [0, 31, 59, 90, 120, 151, 181, 212, 243, 273, 304, 334].getD (m - 1) 0

/-- The number of a calendar day that C40 asks for: that of a year without February 29, which counts as
February 28. -/
def calendarNumber (m d : ℕ) : ℕ := if m = 2 ∧ d = 29 then 59 else before m + d

end Tcrm.Dates
