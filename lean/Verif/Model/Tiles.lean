import Mathlib.Data.Rat.Floor
import Mathlib.Algebra.Order.Floor.Ring

/-!
Model of the tiling of the hazard domain: `hazard/__init__.py`, class `TileGrid`
and the helpers `getTiles`, `getTileLimits`.

Simplifications: an axis (`wf_lon` / `wf_lat`) is given by its values in
thousandths of a degree already rounded (`np.round(wf_lon*1000).astype(int)`),
and a limit by `int(gridLimit['xMin']*1000)`; both are integers in the code.
The arrays `x_start … y_end` filled at index `k` while `k` runs from `0` are the
list of tiles in the order they are produced.
-/

namespace Tcrm.Tiles

/-- What can go wrong while building a tile grid. -/
inductive Err where
  /-- `ii[0]` on an empty index array (`IndexError`). -/
  | indexError
  /-- `int(np.ceil(xdim / 0.0))`, i.e. `int(inf)` (`OverflowError`). -/
  | overflowError
  deriving DecidableEq, Repr

/-- hazard/__init__.py L107-116: the indices of an axis whose value is within the
limits (`((axis >= lo) & (axis <= hi)).nonzero()`). -/
def within (axis : List Int) (lo hi : Int) : List Nat :=
  (axis.zipIdx.filter fun p => decide (lo ≤ p.1) && decide (p.1 ≤ hi)).map (·.2)

/-- One tile: closed index ranges, as stored in `x_start[k] … y_end[k]`. -/
structure Tile where
  xStart : Int
  xEnd : Int
  yStart : Int
  yEnd : Int
  deriving DecidableEq, Repr

/-- hazard/__init__.py L139-140: `int(np.ceil(dim / float(step)))` for `step ≠ 0`. -/
def ceilDiv (dim step : Int) : Nat := (⌈(dim : ℚ) / (step : ℚ)⌉).toNat

/-- hazard/__init__.py L150-151 (and L153-154): the closed index range of column
(row) `i` along one axis of extent `dim` starting at `lo`. -/
def span (lo dim step : Int) (i : Nat) : Int × Int :=
  ((i : Int) * step + lo, min (((i : Int) + 1) * step + lo) (dim + lo) - 1)

/-- hazard/__init__.py L133-156, `TileGrid.tileGrid`: the nested loops over
columns and rows, in order. -/
def tileGrid (imin jmin xdim ydim xstep ystep : Int) : List Tile :=
  (List.range (ceilDiv xdim xstep)).flatMap fun i =>
    (List.range (ceilDiv ydim ystep)).map fun j =>
      { xStart := (span imin xdim xstep i).1, xEnd := (span imin xdim xstep i).2
        yStart := (span jmin ydim ystep j).1, yEnd := (span jmin ydim ystep j).2 }

/-- The attributes of a `TileGrid` instance. -/
structure Grid where
  imin : Int
  imax : Int
  jmin : Int
  jmax : Int
  numTiles : Nat
  tiles : List Tile
  deriving Repr

/-- hazard/__init__.py L88-131, `TileGrid.__init__`. `xLo = int(xMin*1000)` etc. -/
def mkGrid (lon lat : List Int) (xLo xHi yLo yHi : Int) (xstep ystep : Nat) :
    Except Err Grid :=
  let ii := within lon xLo xHi
  let jj := within lat yLo yHi
  match ii.head?, ii.getLast?, jj.head?, jj.getLast? with
  | some imin, some imax, some jmin, some jmax =>
    if xstep = 0 ∨ ystep = 0 then .error .overflowError
    else
      let xdim : Int := (imax : Int) - imin + 1
      let ydim : Int := (jmax : Int) - jmin + 1
      .ok { imin := imin, imax := imax, jmin := jmin, jmax := jmax
            numTiles := ceilDiv xdim xstep * ceilDiv ydim ystep
            tiles := tileGrid imin jmin xdim ydim xstep ystep }
  | _, _, _, _ => .error .indexError

/-- The half-open index limits handed to a hazard calculation. -/
structure Limits where
  x1 : Int
  x2 : Int
  y1 : Int
  y2 : Int
  deriving DecidableEq, Repr

/-- hazard/__init__.py L159-179, `TileGrid.getGridLimit`; `none` is the
`IndexError` of `x_start[k]` for `k` out of range. -/
def getGridLimit (g : Grid) (k : Nat) : Option Limits :=
  (g.tiles[k]?).map fun t => { x1 := t.xStart, x2 := t.xEnd + 1, y1 := t.yStart, y2 := t.yEnd + 1 }

/-- hazard/__init__.py L952-974, `getTiles` / `getTileLimits`: the limits of tiles
`0 … num_tiles-1`; `none` if any lookup fails. -/
def getTiles (g : Grid) : Option (List Limits) :=
  (List.range g.numTiles).mapM (getGridLimit g)

end Tcrm.Tiles
