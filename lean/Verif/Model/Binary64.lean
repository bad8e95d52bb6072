import Mathlib.Data.Int.Log
import Verif.Model.DataProc
import Verif.Model.Windfield
import Verif.Model.Tiles
/-!
Double precision: the numbers Python computes with, as far as rounding goes. Used for the grids of the wind field
(wind/__init__.py, Utilities/maputils.py), where decimal settings are made into whole numbers of hundredths and
thousandths of a degree. The other models work with exact numbers.
-/
namespace Tcrm.Binary64

open Tcrm.Windfield

/-- IEEE 754: the double nearest to a number, ties to the even one. The range of the exponent is not limited (no
overflow, no subnormal numbers). A decimal setting `x` is read as `fl x`, and the product of two doubles is the double
nearest to the exact product. -/
def fl (x : ℚ) : ℚ :=
  if x = 0 then 0
  else
    let u := (2 : ℚ) ^ (Int.log 2 |x| - 52)
    (DataProc.npRound (x / u) : ℚ) * u

/-- The settings of a wind field calculation, as read. -/
structure Settings where
  margin : ℚ
  resolution : ℚ
  domain : Domain

/-- Number of points of one axis of the local grid, Utilities/maputils.py L494-514 (`makeGrid`), with products rounded by
`rd`. -/
def localSize (rd : ℚ → ℚ) (c : ℚ) (lo hi : Option ℚ) (margin resolution : ℚ) : ℕ :=
  let gridSize := pyInt (rd (resolution * 1000))
  let a := match given lo with
    | some l => pyInt (rd (1000 * l)) - pyInt (rd (1000 * margin))
    | none => pyInt (rd (1000 * c)) - pyInt (rd (1000 * margin))
  let b := match given hi with
    | some h => pyInt (rd (1000 * h)) + pyInt (rd (1000 * margin)) + 1
    | none => pyInt (rd (1000 * c)) + pyInt (rd (1000 * margin)) + 1
  (arange a b gridSize).length

/-- Number of points of one axis of the regional grid, wind/__init__.py L241-250. -/
def regionSize (rd : ℚ → ℚ) (lo hi margin resolution : ℚ) : ℕ :=
  let gridMargin := pyInt (rd (100 * margin))
  let gridStep := pyInt (rd (100 * resolution))
  (arange (pyInt (rd (100 * lo)) - gridMargin) (pyInt (rd (100 * hi)) + gridMargin + gridStep) gridStep).length

/-- Window of one axis, wind/__init__.py L278-297; the quotients of whole numbers are rounded too. -/
def windowOf (rd : ℚ → ℚ) (d : Domain) (c lo hi margin resolution : ℚ) : ℤ × ℤ :=
  let gridMargin := pyInt (rd (100 * margin))
  let gridStep := pyInt (rd (100 * resolution))
  let min := pyInt (rd (100 * lo)) - gridMargin
  let max := pyInt (rd (100 * hi)) + gridMargin
  let pos := pyInt (rd (100 * c))
  if d = .bounded then
    (pyInt (rd (((pos - min - gridMargin : ℤ) : ℚ) / gridStep)),
     pyInt (rd (((pos - min + gridMargin : ℤ) : ℚ) / gridStep)) + 1)
  else
    (0, pyInt (rd (((max - min + 2 * gridMargin : ℤ) : ℚ) / gridStep)) + 1)

/-- Whether the local field fits the window along one axis, wind/__init__.py L306-325 (as `fits` in the exact model) -/
def axisFits (rd : ℚ → ℚ) (S : Settings) (c lo hi : ℚ) : Bool :=
  let n := regionSize rd lo hi S.margin S.resolution
  let w := windowOf rd S.domain c lo hi S.margin S.resolution
  let lim (x : ℚ) : Option ℚ := if S.domain = .full then some x else none
  decide (fits (localSize rd c (lim lo) (lim hi) S.margin S.resolution) (bound n w.2 - bound n w.1))

/-- Whether wind/__init__.py L212-330 (`regionalExtremes`) gets through, for the positions (longitude, latitude) of a
track; otherwise it raises. -/
def succeeds (rd : ℚ → ℚ) (S : Settings) (gl : Limits) (track : List (ℚ × ℚ)) : Bool :=
  decide (pyInt (rd (100 * S.resolution)) ≠ 0) &&
  (track.filter fun p => decide (gl.xMin ≤ p.1 ∧ p.1 ≤ gl.xMax ∧ gl.yMin ≤ p.2 ∧ p.2 ≤ gl.yMax)).all fun p =>
    axisFits rd S p.2 gl.yMin gl.yMax && axisFits rd S p.1 gl.xMin gl.xMax

/-- wind/__init__.py L241-250: one axis of the regional grid, in hundredths of a degree. -/
def gridAxis (lo hi margin resolution : ℚ) : List ℤ :=
  let gridMargin := pyInt (fl (100 * margin))
  let gridStep := pyInt (fl (100 * resolution))
  arange (pyInt (fl (100 * lo)) - gridMargin) (pyInt (fl (100 * hi)) + gridMargin + gridStep) gridStep

/-- wind/__init__.py L330: the coordinates of the grid points `ns` (in hundredths of a degree), as saved. -/
def axisOf (ns : List ℤ) : List ℚ := ns.map fun n : ℤ => fl ((n : ℚ) / 100)

/-- hazard/__init__.py L107-116: the indices of the coordinates in the region of the hazard. -/
def hazardIndices (axis : List ℚ) (lo hi : ℚ) : List ℕ :=
  Tiles.within (axis.map fun v => DataProc.npRound (fl (v * 1000))) (pyInt (fl (lo * 1000))) (pyInt (fl (hi * 1000)))

/-- One axis as saved: latitudes (`lat`) from north to south (wind/__init__.py L553). -/
def savedAxis (lat : Bool) (lo hi margin resolution : ℚ) : List ℤ :=
  let l := gridAxis lo hi margin resolution
  if lat then l.reverse else l

/-- hazard/__init__.py L118-119 and L188-189 (`getDomainExtent`): the coordinates along one axis the hazard is calculated
for, from the grid of the wind fields of the same region. -/
def hazardCoords (lat : Bool) (lo hi margin resolution : ℚ) : List ℚ :=
  let axis := axisOf (savedAxis lat lo hi margin resolution)
  let ii := hazardIndices axis lo hi
  match ii.head?, ii.getLast? with
  | some a, some b => (axis.take (b + 1)).drop a
  | _, _ => []

end Tcrm.Binary64
