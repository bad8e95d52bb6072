import Mathlib.Analysis.Real.Sqrt
import Mathlib.Algebra.Order.Floor.Ring
import Mathlib.Data.Rat.Floor
/-!
The regional wind field around a track: construction of the local and regional grids, the window
of the regional grid a local field is pasted into, and the running extremes.

Coordinates are exact rationals (degrees) and integers (hundredths or thousandths of a degree),
wind speeds and pressures exact reals; rounding to single precision and NaNs are not modelled.
-/
namespace Tcrm.Windfield

/-- Exceptions: `np.arange` with step 0, and an array that does not fit the window. -/
inductive Err where
  | zeroDivision
  | valueError
  | stopIteration
  deriving DecidableEq, Repr

/-- Python `int(x)`: truncation towards zero. -/
def pyInt (x : ℚ) : ℤ := if 0 ≤ x then ⌊x⌋ else ⌈x⌉

/-- `np.arange(lo, hi, step)` on integers with `step > 0`. -/
def arange (lo hi step : ℤ) : List ℤ :=
  (List.range (-((lo - hi) / step)).toNat).map fun k : ℕ => lo + step * (k : ℤ)

/-- Truth value of an optional number: missing and 0 are false. -/
def given (x : Option ℚ) : Option ℚ := x.filter (· ≠ 0)

/-- One axis (in thousandths of a degree) of the local grid, Utilities/maputils.py L496-516
(`makeGrid`): `c` is the storm position, `lo`/`hi` the optional limits. The distances and angles
computed from the axes are not modelled here. -/
def localAxis (c : ℚ) (lo hi : Option ℚ) (margin resolution : ℚ) : List ℤ :=
  let gridSize := pyInt (resolution * 1000)
  let a := match given lo with
    | some l => pyInt (1000 * l) - pyInt (1000 * margin)
    | none => pyInt (1000 * c) - pyInt (1000 * margin)
  let b := match given hi with
    | some h => pyInt (1000 * h) + pyInt (1000 * margin) + 1
    | none => pyInt (1000 * c) + pyInt (1000 * margin) + 1
  arange a b gridSize

/-- One axis (in hundredths of a degree) of the regional grid, wind/__init__.py L243-253. -/
def regionAxis (lo hi margin resolution : ℚ) : List ℤ :=
  let gridMargin := pyInt (100 * margin)
  let gridStep := pyInt (100 * resolution)
  arange (pyInt (100 * lo) - gridMargin) (pyInt (100 * hi) + gridMargin + gridStep) gridStep

/-- Settings of `domain`, wind/__init__.py L129, L289. -/
inductive Domain where
  | bounded
  | full
  | other
  deriving DecidableEq, Repr

/-- Window of one axis, wind/__init__.py L281-297: start and stop (exclusive) before numpy's
clipping to the axis. -/
def window (d : Domain) (c lo hi margin resolution : ℚ) : ℤ × ℤ :=
  let gridMargin := pyInt (100 * margin)
  let gridStep := pyInt (100 * resolution)
  let min := pyInt (100 * lo) - gridMargin
  let max := pyInt (100 * hi) + gridMargin
  let pos := pyInt (100 * c)
  if d = .bounded then
    (pyInt (((pos - min - gridMargin : ℤ) : ℚ) / gridStep),
     pyInt (((pos - min + gridMargin : ℤ) : ℚ) / gridStep) + 1)
  else
    (0, pyInt (((max - min + 2 * gridMargin : ℤ) : ℚ) / gridStep) + 1)

/-- numpy's interpretation of a slice bound on an axis of length `n`: negative bounds count from
the end, everything is clipped. -/
def bound (n : ℕ) (a : ℤ) : ℕ := if a < 0 then (a + n).toNat else min a.toNat n

/-- Values kept per grid cell. -/
structure Cell where
  gust : ℝ
  bearing : ℝ
  ux : ℝ
  uy : ℝ
  pressure : ℝ

/-- Limits of a region -/
structure Limits where
  xMin : ℚ
  xMax : ℚ
  yMin : ℚ
  yMax : ℚ

/-- The parameters of `WindfieldAroundTrack` used here. `dir` is
`arctan2(-Ux, -Vy) * 180 / pi`. -/
structure Params where
  margin : ℚ
  resolution : ℚ
  domain : Domain
  dir : ℝ → ℝ → ℝ

/-- One time step: storm position, and the wind components (already multiplied by the gust
factor) and pressure given by the wind model at a point (latitude, longitude in thousandths of a
degree). wind/__init__.py L172-210 (`localWindField`) evaluates the wind model on the local grid;
the wind model is arbitrary here. -/
structure TimeStep where
  lon : ℚ
  lat : ℚ
  wind : ℤ → ℤ → ℝ × ℝ × ℝ

/-- Update of one cell, wind/__init__.py L301-325: `w` holds `Ux`, `Vy`, `P`. -/
noncomputable def updateCell (dir : ℝ → ℝ → ℝ) (w : ℝ × ℝ × ℝ) (c : Cell) : Cell :=
  let g := Real.sqrt (w.1 ^ 2 + w.2.1 ^ 2)
  let p := if w.2.2 < c.pressure then w.2.2 else c.pressure
  if g > c.gust then ⟨g, dir w.1 w.2.1, w.1, w.2.1, p⟩ else { c with pressure := p }

/-- Whether an array axis of length `n` can be assigned to a slice of length `m` (numpy
broadcasting). -/
def fits (n m : ℕ) : Prop := n = m ∨ n = 1

instance (n m : ℕ) : Decidable (fits n m) := inferInstanceAs (Decidable (_ ∨ _))

/-- One pass of the loop, wind/__init__.py L275-325, given the axes of the regional grid. -/
noncomputable def pasteStep (P : Params) (gl : Limits) (lats lons : List ℤ) (t : TimeStep)
    (f : ℕ → ℕ → Cell) : Except Err (ℕ → ℕ → Cell) :=
  let wy := window P.domain t.lat gl.yMin gl.yMax P.margin P.resolution
  let wx := window P.domain t.lon gl.xMin gl.xMax P.margin P.resolution
  let lim (x : ℚ) : Option ℚ := if P.domain = .full then some x else none
  let ys := localAxis t.lat (lim gl.yMin) (lim gl.yMax) P.margin P.resolution
  let xs := localAxis t.lon (lim gl.xMin) (lim gl.xMax) P.margin P.resolution
  let y0 := bound lats.length wy.1
  let y1 := bound lats.length wy.2
  let x0 := bound lons.length wx.1
  let x1 := bound lons.length wx.2
  if fits ys.length (y1 - y0) ∧ fits xs.length (x1 - x0) then
    .ok fun j i =>
      if y0 ≤ j ∧ j < y1 ∧ x0 ≤ i ∧ i < x1 then
        -- an axis of length 1 is repeated
        let y := ys.getD (if ys.length = 1 then 0 else j - y0) 0
        let x := xs.getD (if xs.length = 1 then 0 else i - x0) 0
        updateCell P.dir (t.wind y x) (f j i)
      else f j i
  else .error .valueError

/-- The loop over the time steps. -/
noncomputable def pasteAll (P : Params) (gl : Limits) (lats lons : List ℤ) :
    List TimeStep → (ℕ → ℕ → Cell) → Except Err (ℕ → ℕ → Cell)
  | [], f => .ok f
  | t :: ts, f =>
    match pasteStep P gl lats lons t f with
    | .error e => .error e
    | .ok f => pasteAll P gl lats lons ts f

/-- wind/__init__.py L266-270: times when the storm is in the region -/
def inRegion (gl : Limits) (t : TimeStep) : Bool :=
  decide (gl.xMin ≤ t.lon ∧ t.lon ≤ gl.xMax ∧ gl.yMin ≤ t.lat ∧ t.lat ≤ gl.yMax)

/-- wind/__init__.py L212-330 (`regionalExtremes`): the field and the two axes (in hundredths of
a degree). `envPressure` is the environmental pressure of the first time step. The optional
time-step callback is not modelled. -/
noncomputable def regionalExtremes (P : Params) (gl : Limits) (envPressure : ℝ) (track : List TimeStep) :
    Except Err ((ℕ → ℕ → Cell) × List ℤ × List ℤ) :=
  if pyInt (100 * P.resolution) = 0 then .error .zeroDivision
  else
    let lats := regionAxis gl.yMin gl.yMax P.margin P.resolution
    let lons := regionAxis gl.xMin gl.xMax P.margin P.resolution
    match pasteAll P gl lats lons (track.filter (inRegion gl)) fun _ _ => ⟨0, 0, 0, 0, envPressure⟩ with
    | .error e => .error e
    | .ok f => .ok (f, lons, lats)

/-- One pass of the loop of wind/__init__.py L500-505 on one cell: the gust is updated before it
is used to select the components, the bearing is not updated at all. -/
noncomputable def combineCell (a b : Cell) : Cell :=
  let gust := if b.gust > a.gust then b.gust else a.gust
  let ux := if b.gust > gust then b.ux else a.ux
  let uy := if b.gust > gust then b.uy else a.uy
  let pressure := if b.pressure < a.pressure then b.pressure else a.pressure
  ⟨gust, a.bearing, ux, uy, pressure⟩

/-- wind/__init__.py L478-508 (`calculateExtremesFromTrackfile`) on one cell: the fields of the
tracks in order (all on the same grid). `next(results)` raises StopIteration if there is none. -/
noncomputable def combineTracks : List Cell → Except Err Cell
  | [] => .error .stopIteration
  | c :: cs => .ok (cs.foldl combineCell c)

end Tcrm.Windfield
