import Verif.Model.Binary64
import Verif.Model.Cells
/-!
`np.arange` in double precision, and the functions that use it: the numbering of grid cells (Utilities/stats.py) and the
grid of the genesis density (StatInterface/KDEOrigin.py). All arguments are doubles (or whole numbers that are).
-/
namespace Tcrm.Arange64

open Tcrm.Binary64 Tcrm.Cells

/-- numpy: the length of `np.arange(a, b, s)` is the quotient `(b - a) / s`, calculated in double precision and rounded up
(zero if negative). -/
def size (a b s : ℚ) : ℕ := ⌈fl (fl (b - a) / s)⌉.toNat

/-- numpy: the elements of `np.arange(a, b, s)`. The first two are `a` and `a + s`; the others are `a` plus multiples of the
difference of the first two. -/
def elem (a s : ℚ) (i : ℕ) : ℚ :=
  if i = 0 then a
  else if i = 1 then fl (a + s)
  else fl (a + fl (i * fl (fl (a + s) - a)))

/-- numpy: `np.arange(a, b, s)` of doubles -/
def arange (a b s : ℚ) : List ℚ := (List.range (size a b s)).map (elem a s)

/-- Utilities/stats.py L89-103 (`getCellNum`). Python's `//` on doubles is the whole part (towards minus infinity) of the
exact quotient, for quotients below 2⁵¹. -/
def getCellNum (lon0 lat0 : ℚ) (gl : Limit) (gs : Space) : Except Err ℤ :=
  let lon : ℤ := ⌊lon0⌋
  let lat : ℤ := ⌈lat0⌉
  if (lon : ℚ) < gl.xMin ∨ gl.xMax ≤ lon ∨ (lat : ℚ) ≤ gl.yMin ∨ gl.yMax < lat then .error .valueError
  else if gs.x = 0 ∨ gs.y = 0 then .error .zeroDivision
  else
    let j : ℤ := ⌊|fl (|(lon : ℚ)| - |gl.xMin|)| / |gs.x|⌋
    let i : ℤ := ⌊|fl (|(lat : ℚ)| - |gl.yMax|)| / |gs.y|⌋
    let row : ℤ := |⌊fl (gl.xMax - gl.xMin) / gs.x⌋|
    .ok (Windfield.pyInt (fl (fl (i * row) + j)))

/-- Utilities/stats.py L106-117 (`getCellLonLat`) -/
def getCellLonLat (cellNum : ℤ) (gl : Limit) (gs : Space) : Except Err (ℚ × ℚ) :=
  if cellNum < 0 then .error .indexError
  else if gs.x = 0 ∨ gs.y = 0 then .error .zeroDivision
  else
    let lat := arange gl.yMax gl.yMin (-gs.y)
    let lon := arange gl.xMin gl.xMax gs.x
    if lon.length = 0 then .error .zeroDivision
    else
      match lon[cellNum.toNat % lon.length]?, lat[cellNum.toNat / lon.length]? with
      | some a, some b => .ok (a, b)
      | _, _ => .error .indexError

/-- Utilities/stats.py L139-150 (`maxCellNum`) -/
def maxCellNum (gl : Limit) (gs : Space) : ℤ :=
  ((arange gl.yMax gl.yMin (-gs.y)).length : ℤ) * (arange gl.xMin gl.xMax gs.x).length - 1

/-- Utilities/stats.py L120-136 (`validCellNum`) -/
def validCellNum (cellNum : ℤ) (gl : Limit) (gs : Space) : Bool :=
  if cellNum < 0 then false
  else if cellNum > maxCellNum gl gs then false else true

/-- StatInterface/KDEOrigin.py L73-74: the grid of the genesis density, longitudes from west to east and latitudes from
north to south. -/
def originGrid (gl : Limit) (kdeStep : ℚ) : List ℚ × List ℚ :=
  (arange gl.xMin gl.xMax kdeStep, arange gl.yMax gl.yMin (-kdeStep))

end Tcrm.Arange64
