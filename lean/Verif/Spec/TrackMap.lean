import Mathlib.Data.Rat.Defs
import Mathlib.Algebra.Order.Field.Rat
import Mathlib.Tactic.NormNum
/-!
The Australian scale of cyclone intensity, by the mean wind speed in metres per second.
-/
namespace Tcrm.TrackMap

/-- The label of the category of the wind speed `w`; the legend calls all below category 1 "No data". -/
def Spec.Named (w : ℚ) (label : String) : Prop :=
  (label = "No data" ∧ w < 17.5) ∨ (label = "Category 1" ∧ 17.5 ≤ w ∧ w < 24.5) ∨ (label = "Category 2" ∧ 24.5 ≤ w ∧ w < 32.5) ∨
  (label = "Category 3" ∧ 32.5 ≤ w ∧ w < 44.2) ∨ (label = "Category 4" ∧ 44.2 ≤ w ∧ w < 55.5) ∨ (label = "Category 5" ∧ 55.5 ≤ w)

end Tcrm.TrackMap
