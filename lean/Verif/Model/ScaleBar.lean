import Mathlib.Data.Int.Log
import Mathlib.Analysis.SpecialFunctions.Trigonometric.Basic
/-!
The scale bar of the maps: PlotInterface/scalebar.py.  Real numbers in place of floating point; the geodesic distance of
two points of the axes (`geodesic.inverse` of the points that `_axes_to_lonlat` gives) is a parameter, as is the width of
the map in metres.  Loops take the number of rounds as an argument; `none` means that they have not ended by then.
-/
namespace Tcrm.ScaleBar

inductive Err where
  | valueError
  | recursionError
  deriving DecidableEq

/-- A point in axes coordinates. -/
abbrev Pt := ℝ × ℝ

/-- PlotInterface/scalebar.py L41-43: the loop of the exponential search. -/
noncomputable def doubling (dist : Pt → Pt → ℝ) (start direction : Pt) (distance : ℝ) : ℕ → ℝ → Option Pt
  | 0, _ => none
  | n + 1, length =>
    if dist start (start + length • direction) < distance then doubling dist start direction distance n (length * 2)
    else some (start + length • direction)

/-- PlotInterface/scalebar.py L15-45 (`_upper_bound`) -/
noncomputable def upperBound (dist : Pt → Pt → ℝ) (fuel : ℕ) (start direction : Pt) (distance : ℝ) :
    Except Err (Option Pt) :=
  open Classical in
  if distance ≤ 0 then .error .valueError
  else if direction = 0 then .error .valueError
  else .ok (doubling dist start direction distance fuel 0.1)

/-- `np.isclose(a, b, rtol=tol)`, with the default `atol=1e-8` -/
def close (a b tol : ℝ) : Prop := |a - b| ≤ 1e-8 + tol * |b|

/-- PlotInterface/scalebar.py L76-84: the loop of the binary search. -/
noncomputable def halving (dist : Pt → Pt → ℝ) (start : Pt) (distance tol : ℝ) : ℕ → Pt → Pt → Option Pt
  | 0, _, _ => none
  | n + 1, left, right =>
    open Classical in
    if close (dist start right) distance tol then some right
    else if dist start ((1 / 2 : ℝ) • (left + right)) < distance then
      halving dist start distance tol n ((1 / 2 : ℝ) • (left + right)) right
    else halving dist start distance tol n left ((1 / 2 : ℝ) • (left + right))

/-- PlotInterface/scalebar.py L48-86 (`_distance_along_line`) -/
noncomputable def distanceAlongLine (dist : Pt → Pt → ℝ) (fuel : ℕ) (start stop : Pt) (distance tol : ℝ) :
    Except Err (Option Pt) :=
  if dist start stop < distance then .error .valueError
  else if tol ≤ 0 then .error .valueError
  else .ok (halving dist start distance tol fuel start stop)

/-- PlotInterface/scalebar.py L89-117 (`_point_along_line`) -/
noncomputable def pointAlongLine (dist : Pt → Pt → ℝ) (fuel : ℕ) (start : Pt) (distance angle tol : ℝ) :
    Except Err (Option Pt) :=
  match upperBound dist fuel start (Real.cos angle, Real.sin angle) distance with
  | .error e => .error e
  | .ok none => .ok none
  | .ok (some stop) => distanceAlongLine dist fuel start stop distance tol

/-- Python's `round` to a whole number: to the nearest, halves to the even one. -/
noncomputable def roundEven (y : ℝ) : ℤ :=
  if y - ⌊y⌋ < 1 / 2 then ⌊y⌋ else if 1 / 2 < y - ⌊y⌋ then ⌊y⌋ + 1 else if ⌊y⌋ % 2 = 0 then ⌊y⌋ else ⌊y⌋ + 1

/-- The digit that `str(x)` starts with: the first significant one from 1 on and, because of the exponential notation,
below 0.0001; `none` where it starts with a zero or a minus sign. -/
noncomputable def firstDigit (x : ℝ) : Option ℤ :=
  if 1 ≤ x ∨ (0 < x ∧ x < 1e-4) then some ⌊x / 10 ^ Int.log 10 x⌋ else none

/-- PlotInterface/scalebar.py L138-140 (`scale_number`), with the number of calls that are still allowed. -/
noncomputable def scaleNumber (ndim : ℤ) : ℕ → ℝ → Except Err ℤ
  | 0, _ => .error .recursionError
  | n + 1, x =>
    if firstDigit x = some 1 ∨ firstDigit x = some 2 ∨ firstDigit x = some 5 then .ok ⌊x⌋
    else scaleNumber ndim n (x - 10 ^ ndim)

/-- PlotInterface/scalebar.py L134-142: the end of `_setlength`, for a map that is `width` metres wide; `limit` is the
recursion limit.  (`int` drops the decimals; the numbers it is applied to are positive.) -/
noncomputable def setLength (limit : ℕ) (width : ℝ) : Except Err ℤ :=
  let length := width / 5000
  let ndim := Int.log 10 length
  scaleNumber ndim limit (roundEven (length / 10 ^ ndim) * 10 ^ ndim)

/-- What is drawn: a line between two points, and a number (before the name of the unit) at a third. -/
structure Bar where
  start : Pt
  stop : Pt
  label : ℝ
  text : Pt

/-- PlotInterface/scalebar.py L145-208 (`scale_bar`): colours, line width and alignment are left out. -/
noncomputable def scaleBar (dist : Pt → Pt → ℝ) (limit fuel : ℕ) (width : ℝ) (location : Pt) (length : Option ℝ)
    (metresPerUnit tol angle textOffset : ℝ) : Except Err (Option Bar) :=
  open Classical in
  match (match length with
    | some l => if l = 0 then (setLength limit width).map fun n : ℤ => (n : ℝ) else .ok l
    | none => (setLength limit width).map fun n : ℤ => (n : ℝ) : Except Err ℝ) with
  | .error e => .error e
  | .ok l =>
    match pointAlongLine dist fuel location (l * metresPerUnit) (angle * Real.pi / 180) tol with
    | .error e => .error e
    | .ok none => .ok none
    | .ok (some stop) => .ok (some
      { start := location
        stop := stop
        label := l
        text := (1 / 2 : ℝ) • (location + stop) +
          textOffset • (-Real.sin (angle * Real.pi / 180), Real.cos (angle * Real.pi / 180)) })

/-- PlotInterface/maps.py L235-248 (`addMapScale`): the scale bar of every map, at (0.05, 0.1), with the defaults of
PlotInterface/scalebar.py L145-146. -/
noncomputable def mapScale (dist : Pt → Pt → ℝ) (limit fuel : ℕ) (width : ℝ) : Except Err (Option Bar) :=
  scaleBar dist limit fuel width (0.05, 0.1) none 1000 0.01 0 0.005

end Tcrm.ScaleBar
