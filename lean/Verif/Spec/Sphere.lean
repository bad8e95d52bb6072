import Mathlib.Analysis.InnerProductSpace.PiL2
import Mathlib.Geometry.Euclidean.Angle.Unoriented.TriangleInequality
/-!
The sphere of radius 6367 km as unit vectors of three-dimensional space.
-/
namespace Tcrm.Sphere
open Real

/-- Three-dimensional space -/
abbrev Space := EuclideanSpace ℝ (Fin 3)

/-- The unit vector that points at a longitude and latitude in degrees: the third axis goes through the north pole,
the first through longitude 0 on the equator. -/
noncomputable def position (lon lat : ℝ) : Space :=
  !₂[cos (lat * π / 180) * cos (lon * π / 180), cos (lat * π / 180) * sin (lon * π / 180), sin (lat * π / 180)]

/-- The unit tangent towards north -/
noncomputable def north (lon lat : ℝ) : Space :=
  !₂[-(sin (lat * π / 180) * cos (lon * π / 180)), -(sin (lat * π / 180) * sin (lon * π / 180)), cos (lat * π / 180)]

/-- The unit tangent towards east -/
noncomputable def east (lon : ℝ) : Space := !₂[-sin (lon * π / 180), cos (lon * π / 180), 0]

/-- Where one arrives from `(lon, lat)` after `d` kilometres along the great circle that leaves in the direction
`bearing` (degrees clockwise from north). -/
noncomputable def travel (bearing d lon lat : ℝ) : Space :=
  cos (d / 6367) • position lon lat +
    sin (d / 6367) • (cos (bearing * π / 180) • north lon lat + sin (bearing * π / 180) • east lon)

/-- Distance over the surface between two positions -/
noncomputable def surface (p q : Space) : ℝ := 6367 * InnerProductGeometry.angle p q

end Tcrm.Sphere
