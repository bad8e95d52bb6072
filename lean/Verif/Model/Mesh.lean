import Verif.Model.Windfield
/-!
Coordinates of the grid around a storm, Utilities/maputils.py.
-/
namespace Tcrm.Windfield

/-- One axis (in thousandths of a degree) of Utilities/maputils.py L572-601 (`meshLatLon`) for a resolution of a
thousandth of a degree or more; Evaluate/windFieldValidation.py L26-28 (`meshGrid`) -/
def meshAxis (c margin resolution : ℚ) : List ℤ :=
  let gridSize := pyInt (1000 * resolution)
  let lo := pyInt (1000 * (c - margin))
  let hi := pyInt (1000 * (c + margin)) + gridSize
  arange lo hi gridSize

/-- The coordinates in degrees, longitude first, at row `j` and column `i` of the two matrices, Utilities/maputils.py
L600-601; `none` is outside the matrices. -/
def mesh (cLon cLat margin resolution : ℚ) (j i : ℕ) : Option (ℚ × ℚ) :=
  match (meshAxis cLon margin resolution)[i]?, (meshAxis cLat margin resolution)[j]? with
  | some x, some y => some ((x : ℚ) / 1000, (y : ℚ) / 1000)
  | _, _ => none

/-- The point, longitude first, whose distance and bearing is at row `j` and column `i` of the two matrices of
Utilities/maputils.py L469-531 (`makeGrid`) without limits; Evaluate/windFieldValidation.py L22-24
(`polarGridAroundEye`) -/
def gridPoint (cLon cLat margin resolution : ℚ) (j i : ℕ) : Option (ℚ × ℚ) :=
  match (localAxis cLon none none margin resolution)[i]?, (localAxis cLat none none margin resolution)[j]? with
  | some x, some y => some ((x : ℚ) / 1000, (y : ℚ) / 1000)
  | _, _ => none

end Tcrm.Windfield
