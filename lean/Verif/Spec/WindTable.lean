import Mathlib.Analysis.SpecialFunctions.Pow.Real
import Verif.Model.WindTable
/-!
What the table of maximum winds should hold.
-/
namespace Tcrm.WindTable

/-- The combination of parameters at a position, in SI units: latitude from 30 to 6 degrees south by 2,
central pressure 900 to 990 hPa by 5, environmental pressure 995 to 1015 hPa, radius 10 to 90 km by 5,
speed 0 to 50 km/h by 5; the movement is towards 70 degrees from north. -/
noncomputable def cyclone (wind : Wind) (il ic ip ir iv : ℕ) : List ℝ × List (ℝ × ℝ) :=
  wind (-30 + 2 * il) (100 * (995 + ip)) (100 * (900 + 5 * ic)) (1000 * (10 + 5 * ir))
    (0.2777778 * (5 * iv)) (20 * Real.pi / 180)

/-- `m` is the largest of the absolute values. -/
def LargestAbs (l : List ℝ) (m : ℝ) : Prop := IsGreatest {x | ∃ v ∈ l, x = |v|} m

/-- `m` is 1.268 times the largest speed. -/
def LargestGust (l : List (ℝ × ℝ)) (m : ℝ) : Prop :=
  IsGreatest {x | ∃ u ∈ l, x = 1.268 * Real.sqrt (u.1 ^ 2 + u.2 ^ 2)} m

end Tcrm.WindTable
