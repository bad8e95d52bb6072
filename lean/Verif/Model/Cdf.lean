import Mathlib.Algebra.Order.Field.Basic
import Mathlib.Algebra.BigOperators.Group.List.Basic
import Mathlib.Algebra.BigOperators.Group.Finset.Basic
/-!
Tabulated cumulative distribution functions and sampling from them.

Numbers are elements of an arbitrary linearly ordered field `K`: floating-point
rounding is not modelled.
-/
namespace Tcrm.Cdf

variable {K : Type} [Field K] [LinearOrder K]

/-- Python exceptions that can leave the functions of this file. -/
inductive Err where
  | indexError
  | typeError
  | valueError
  deriving DecidableEq, Repr

/-- `ndarray.cumsum` continued from `acc`. -/
def cumsumFrom (acc : K) : List K → List K
  | [] => []
  | y :: t => (acc + y) :: cumsumFrom (acc + y) t

/-- `ndarray.cumsum` -/
def cumsum (l : List K) : List K := cumsumFrom 0 l

/-- Utilities/stats.py L44-58 (`cdf`): scale by the grid spacing `|x[1]-x[0]|`,
cumulate, divide by the last value unless it is zero. `x[1]` and `cy[-1]` raise
`IndexError` on too short arrays. -/
def cdf (x y : List K) : Except Err (List K) :=
  match x with
  | x0 :: x1 :: _ =>
    let h := |x1 - x0|
    let cy := cumsum (y.map (h * ·))
    match cy.getLast? with
    | none => .error .indexError
    | some last => if last = 0 then .ok cy else .ok (cy.map (· / last))
  | _ => .error .indexError

/-- Contract of `ndarray.searchsorted(q)` (side `left`) for a non-decreasing array:
the first index whose value is not below `q`, the length if there is none. -/
def searchsorted (a : List K) (q : K) : Nat := a.findIdx fun v => decide (q ≤ v)

/-- TrackGenerator/TrackGenerator.py L1678-1686 (`ppf`) and
StatInterface/SamplingParameters.py L75-80 (`generateOneSample`, with the variate
drawn from `np.random.rand()` as an argument): look the variate up in column 1 and
return column 0. Rows are pairs (value, CDF). -/
def ppf (q : K) (table : List (K × K)) : Except Err K :=
  match (table.map (·.1))[searchsorted (table.map (·.2)) q]? with
  | some v => .ok v
  | none => .error .indexError

/-- StatInterface/SamplingParameters.py L82-106 (`generateSamples`): `ns <= 0` raises
`ValueError`, otherwise each variate is looked up. `us` is the vector
`np.random.rand(ns)`. -/
def generateSamples (ns : Int) (us : List K) (table : List (K × K)) : Except Err (List K) :=
  if ns ≤ 0 then .error .valueError else us.mapM fun u => ppf u table

/-- A numpy array of shape `(rows, cols)`. -/
structure Grid (K : Type) where
  rows : Nat
  cols : Nat
  val : Nat → Nat → K

/-- Column sums `z.sum(axis=0)`. -/
def colSums (z : Grid K) : List K :=
  (List.range z.cols).map fun i => ((List.range z.rows).map fun j => z.val j i).sum

/-- StatInterface/SamplingOrigin.py L231-236: row `i` of `py`, the density of latitude
given longitude index `i`. -/
def condRow (z : Grid K) (i : Nat) : List K :=
  let px := ((List.range z.rows).map fun j => z.val j i).sum
  (List.range z.rows).map fun j => if px = 0 then 0 else z.val j i / px

/-- StatInterface/SamplingOrigin.py L213-251 (`_calculateCDF`): the marginal CDF over
longitude and the conditional CDF over latitude for each longitude index. -/
def originCdf (x y : List K) (z : Grid K) : Except Err (List K × List (List K)) :=
  match cdf x (colSums z) with
  | .error e => .error e
  | .ok cx =>
    match (List.range z.cols).mapM fun i => cdf y (condRow z i) with
    | .error e => .error e
    | .ok cy => .ok (cx, cy)

/-- StatInterface/SamplingOrigin.py L129-141 (`ppf`; `generateOneSample` L117-127 and the
loop body of `generateSamples` L187-197 do the same with drawn variates). Indexing out
of range raises `IndexError`. -/
def originPpf (x y : List K) (cdfX : List K) (cdfY : List (List K)) (q1 q2 : K) :
    Except Err (K × K) :=
  let xi := searchsorted cdfX q1
  match cdfY[xi]? with
  | none => .error .indexError
  | some row =>
    let yj := searchsorted row q2
    match x[xi]?, y[yj]? with
    | some a, some b => .ok (a, b)
    | _, _ => .error .indexError

/-- The whole sampler: construction (StatInterface/SamplingOrigin.py L30-66) followed by `ppf`. -/
def sampleOrigin (x y : List K) (z : Grid K) (q1 q2 : K) : Except Err (K × K) :=
  match originCdf x y z with
  | .error e => .error e
  | .ok (cx, cy) => originPpf x y cx cy q1 q2

/-- Utilities/stats.py L72-80: the array `cz` before normalisation; `g` is
`grid_volume`. The first column and the first row are running sums, every other entry
is filled from its three predecessors; the loop fills each entry once, after them. -/
def cz (g : Nat → Nat → K) : Nat → Nat → K
  | 0, 0 => g 0 0
  | i + 1, 0 => cz g i 0 + g (i + 1) 0
  | 0, j + 1 => cz g 0 j + g 0 (j + 1)
  | i + 1, j + 1 => cz g i (j + 1) + cz g (i + 1) j - cz g i j + g (i + 1) (j + 1)

/-- Utilities/stats.py L61-86 (`cdf2d`). `z` has shape `(x.size, y.size)`. -/
def cdf2d (x y : List K) (z : Nat → Nat → K) : Except Err (Grid K) :=
  match x, y with
  | x0 :: x1 :: _, y0 :: y1 :: _ =>
    let area := |x1 - x0| * |y1 - y0|
    let c := cz fun i j => area * z i j
    let last := c (x.length - 1) (y.length - 1)
    .ok { rows := x.length, cols := y.length
          val := if last = 0 then c else fun i j => c i j / last }
  | _, _ => .error .typeError

end Tcrm.Cdf
