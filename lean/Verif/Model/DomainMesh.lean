import Verif.Model.Mesh
/-!
The grid over a whole domain: distances and bearings from a place, and coordinates, Utilities/maputils.py.
-/
namespace Tcrm.Windfield

/-- One axis (in thousandths of a degree) of Utilities/maputils.py L533-570 (`makeGridDomain`), from L557-564, for a
resolution of a thousandth of a degree or more -/
def domainAxis (lo hi margin resolution : ℚ) : List ℤ :=
  let gridSize := pyInt (resolution * 1000)
  let lo_ := pyInt (1000 * lo) - pyInt (1000 * margin)
  let hi_ := pyInt (1000 * hi) + pyInt (1000 * margin) + 1
  arange lo_ hi_ gridSize

/-- One axis (in thousandths of a degree) of Utilities/maputils.py L603-631 (`meshLatLonDomain`), from L620-628, for a
resolution of a thousandth of a degree or more -/
def domainMeshAxis (lo hi margin resolution : ℚ) : List ℤ :=
  let gridSize := pyInt (1000 * resolution)
  let lo_ := pyInt (1000 * (lo - margin))
  let hi_ := pyInt (1000 * (hi + margin)) + gridSize
  arange lo_ hi_ gridSize

/-- Limits of a domain in degrees -/
structure Region where
  minLon : ℚ
  maxLon : ℚ
  minLat : ℚ
  maxLat : ℚ

/-- The coordinates in degrees, longitude first, at row `j` and column `i` of the two matrices of
Utilities/maputils.py L630-631 (`np.meshgrid`); `none` is outside the matrices. -/
def domainMesh (d : Region) (margin resolution : ℚ) (j i : ℕ) : Option (ℚ × ℚ) :=
  match (domainMeshAxis d.minLon d.maxLon margin resolution)[i]?, (domainMeshAxis d.minLat d.maxLat margin resolution)[j]? with
  | some x, some y => some ((x : ℚ) / 1000, (y : ℚ) / 1000)
  | _, _ => none

/-- The point, longitude first, whose distance and bearing is at row `j` and column `i` of the two matrices of
Utilities/maputils.py L566-570; the distances and bearings themselves are modelled in Model/Sphere.lean. -/
def domainPoint (d : Region) (margin resolution : ℚ) (j i : ℕ) : Option (ℚ × ℚ) :=
  match (domainAxis d.minLon d.maxLon margin resolution)[i]?, (domainAxis d.minLat d.maxLat margin resolution)[j]? with
  | some x, some y => some ((x : ℚ) / 1000, (y : ℚ) / 1000)
  | _, _ => none

end Tcrm.Windfield
