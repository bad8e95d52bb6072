import Verif.Spec.Sphere
/-!
The course of a track: its positions, joined by straight lines in longitude and latitude.
-/
namespace Tcrm.Closest
open Tcrm.Sphere

/-- `q` is a position of the track or between two consecutive ones. -/
def OnCourse (coords : List (ℝ × ℝ)) (q : ℝ × ℝ) : Prop :=
  q ∈ coords ∨ ∃ (i : ℕ) (a b : ℝ × ℝ) (t : ℝ), coords[i]? = some a ∧ coords[i + 1]? = some b ∧ 0 ≤ t ∧ t ≤ 1 ∧
    q = (a.1 + t * (b.1 - a.1), a.2 + t * (b.2 - a.2))

/-- Kilometres over the surface between two places -/
noncomputable def between (p q : ℝ × ℝ) : ℝ := surface (position p.1 p.2) (position q.1 q.2)

/-- Degrees in the plane of longitude and latitude, a degree counted as 111.1251 km -/
noncomputable def flat (p q : ℝ × ℝ) : ℝ := 111.1251 * √((p.1 - q.1) ^ 2 + (p.2 - q.2) ^ 2)

end Tcrm.Closest
