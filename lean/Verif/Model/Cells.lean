import Mathlib.Data.Rat.Floor
import Mathlib.Tactic.Linarith
/-!
Grid cell numbers.  Coordinates, limits and spacings are rationals; Python `//` is the
floor of the quotient; `math.floor`/`math.ceil` are exact.
-/
namespace Tcrm.Cells

inductive Err where
  | valueError
  | indexError
  | zeroDivision
  deriving DecidableEq, Repr

/-- `gridLimit` dictionary -/
structure Limit where
  xMin : ℚ
  xMax : ℚ
  yMin : ℚ
  yMax : ℚ

/-- `gridSpace` dictionary -/
structure Space where
  x : ℚ
  y : ℚ

/-- Utilities/stats.py L89-103 (`getCellNum`). A zero spacing raises ZeroDivisionError
(after the range check). -/
def getCellNum (lon0 lat0 : ℚ) (gl : Limit) (gs : Space) : Except Err ℤ :=
  let lon : ℤ := ⌊lon0⌋
  let lat : ℤ := ⌈lat0⌉
  if (lon : ℚ) < gl.xMin ∨ gl.xMax ≤ lon ∨ (lat : ℚ) ≤ gl.yMin ∨ gl.yMax < lat then
    .error .valueError
  else if gs.x = 0 ∨ gs.y = 0 then .error .zeroDivision
  else
    let j : ℤ := ⌊|(|(lon : ℚ)| - |gl.xMin|)| / |gs.x|⌋
    let i : ℤ := ⌊|(|(lat : ℚ)| - |gl.yMax|)| / |gs.y|⌋
    .ok (i * |⌊(gl.xMax - gl.xMin) / gs.x⌋| + j)

/-- Number of elements of `np.arange(a, b, s)`. -/
def arangeSize (a b s : ℚ) : ℕ := ⌈(b - a) / s⌉.toNat

/-- Element `k` of `np.arange(a, b, s)` (indexing past the end raises IndexError). -/
def arangeGet (a b s : ℚ) (k : ℕ) : Option ℚ := if k < arangeSize a b s then some (a + k * s) else none

/-- Utilities/stats.py L106-117 (`getCellLonLat`). `cellNum % 0` on numpy/Python ints with an
empty longitude axis is reported as `zeroDivision`. -/
def getCellLonLat (cellNum : ℤ) (gl : Limit) (gs : Space) : Except Err (ℚ × ℚ) :=
  if cellNum < 0 then .error .indexError
  else if gs.x = 0 ∨ gs.y = 0 then .error .zeroDivision
  else
    let nlon := arangeSize gl.xMin gl.xMax gs.x
    if nlon = 0 then .error .zeroDivision
    else
      let indLat := cellNum.toNat / nlon
      let indLon := cellNum.toNat % nlon
      match arangeGet gl.xMin gl.xMax gs.x indLon, arangeGet gl.yMax gl.yMin (-gs.y) indLat with
      | some a, some b => .ok (a, b)
      | _, _ => .error .indexError

/-- Utilities/stats.py L139-150 (`maxCellNum`) -/
def maxCellNum (gl : Limit) (gs : Space) : ℤ :=
  (arangeSize gl.yMax gl.yMin (-gs.y) : ℤ) * arangeSize gl.xMin gl.xMax gs.x - 1

/-- Utilities/stats.py L120-136 (`validCellNum`) -/
def validCellNum (cellNum : ℤ) (gl : Limit) (gs : Space) : Bool :=
  if cellNum < 0 then false
  else
    let latCells : ℤ := arangeSize gl.yMax gl.yMin (-gs.y)
    let lonCells : ℤ := arangeSize gl.xMin gl.xMax gs.x
    let numCells := latCells * lonCells - 1
    if cellNum > numCells then false else true

end Tcrm.Cells
