import Mathlib.Algebra.Order.Field.Basic
/-!
The compiled interpolation of track positions: Utilities/akima.c, which Utilities/akima.py L176-182 uses instead of its
own code where it has been built. Numbers are those of an ordered field (no rounding). The data and the new places are
one-dimensional and of type double, no output array is given, and memory can be allocated.

The arrays of the data are memory: functions of the index from the start of the array, defined also beyond its end
(what is there is arbitrary).
-/
namespace Tcrm.AkimaC

variable {K : Type} [Field K] [LinearOrder K]

inductive Err where
  | valueError
  deriving DecidableEq

/-- Utilities/akima.c L96-112: the slopes of the first `i` intervals from `j` on, or nothing for an interval that is
too short. -/
def slopes (x y : ℕ → K) : ℕ → ℕ → Option (List K)
  | 0, _ => some []
  | i + 1, j =>
    if x (j + 1) - x j < 1 / 1000000000000 then none
    else
      match slopes x y i (j + 1) with
      | none => none
      | some l => some ((y (j + 1) - y j) / (x (j + 1) - x j) :: l)

/-- Utilities/akima.c L114-125: the gradients `(g0, g1)` at two points added on the left. -/
def left (x y : ℕ → K) (p3 : List K) : K × K :=
  let t0 := x 0
  let t1 := x 1
  let t2 := y 0
  let x1 := t0 + t1 - x 2
  let x0 := x1 + t0 - t1
  let y1 := (t0 - x1) * (p3.getD 1 0 - 2 * p3.getD 0 0) + t2
  let g1 := (t2 - y1) / (t0 - x1)
  let y0 := (x1 - x0) * (p3.getD 0 0 - 2 * g1) + y1
  ((y1 - y0) / (x1 - x0), g1)

/-- Utilities/akima.c L127-140: `p3` with the gradients at two points added on the right. -/
def right (si : ℕ) (x y : ℕ → K) (p3 : List K) : List K :=
  let t0 := x (si - 2)
  let t1 := x (si - 1)
  let x2 := t1 + t0 - x (si - 3)
  let x3 := x2 + t1 - t0
  let t3 := y (si - 1)
  let y2 := (2 * p3.getD (si - 2) 0 - p3.getD (si - 3) 0) * (x2 - t1) + t3
  let q1 := (y2 - t3) / (x2 - t1)
  let y3 := (2 * q1 - p3.getD (si - 2) 0) * (x3 - x2) + y2
  p3 ++ [q1, (y3 - y2) / (x3 - x2)]

/-- Utilities/akima.c L142-162, one pass: the derivative at a node. -/
def node (t0 t1 t2 t3 : K) : K :=
  let d0 := if t3 - t2 < 0 then (t3 - t2) * -1 else t3 - t2
  let d1 := if t1 - t0 < 0 then (t1 - t0) * -1 else t1 - t0
  if d0 + d1 < 1 / 1000000000 then 1 / 2 * (t1 + t2) else (d0 * t1 + d1 * t2) / (d0 + d1)

/-- Utilities/akima.c L142-162: the passes over the rest of `p3` with the values that `t1`, `t2` and `t3` have. The
entries that are read are ahead of those that are written. -/
def nodes (t1 t2 t3 : K) : List K → List K
  | t3' :: rest => node t1 t2 t3 t3' :: nodes t2 t3 t3' rest
  | [] => []

/-- Utilities/akima.c L164-185: the coefficients `(p0, p1, p2)` of the `i` intervals from `j` on; `p3` has the
derivatives from `j` on, followed by an entry that has not been overwritten. -/
def coefs (x y : ℕ → K) : ℕ → ℕ → List K → List (K × K × K)
  | 0, _, _ => []
  | i + 1, j, p3 =>
    let d0 := x (j + 1) - x j
    let t2 := (y (j + 1) - y j) / d0
    let g0 := p3.getD 0 0
    let g1 := p3.getD 1 0
    (y j, (3 * t2 - 2 * g0 - g1) / d0, (g0 + g1 - 2 * t2) / (d0 * d0)) :: coefs x y i (j + 1) p3.tail

/-- Utilities/akima.c L200-203: `pxi` moves forward while the new place is beyond it, as far as the last entry; `k` is
its index (`i` is `k - 1`), `r` the number of entries after it. -/
def advance (x : ℕ → K) (t0 : K) : ℕ → ℕ → ℕ
  | 0, k => k
  | r + 1, k => if t0 > x k then advance x t0 r (k + 1) else k

/-- Utilities/akima.c L186-213: the new places one after the other. -/
def scan (si : ℕ) (x : ℕ → K) (p : List (K × K × K)) (p3 : List K) : ℕ → List K → List K
  | _, [] => []
  | k, t0 :: rest =>
    let k' := max (advance x t0 (si - 1 - k) k) 1
    let t1 := t0 - x (k' - 1)
    let c := p.getD (k' - 1) (0, 0, 0)
    (c.1 + p3.getD (k' - 1) 0 * t1 + c.2.1 * t1 * t1 + c.2.2 * t1 * t1 * t1) :: scan si x p p3 k' rest

/-- Utilities/akima.c L72-215 (`interpolate`), `si` entries at `x` and `y` -/
def interpolate (si : ℕ) (x y : ℕ → K) (xo : List K) : Option (List K) :=
  match slopes x y (si - 1) 0 with
  | none => none
  | some m =>
    let g := left x y m
    let p3 := right si x y m
    let b := nodes g.1 g.2 (p3.getD 0 0) p3.tail
    -- the last of the `si + 1` entries of `p3` is not overwritten
    let p3' := b ++ [p3.getD si 0]
    some (scan si x (coefs x y si 0 p3') p3' 0 xo)

/-- Utilities/akima.c L268-413 (`py_interpolate`): the data are lists; what is in memory after them is given by
`afterX` and `afterY`. -/
def pyInterpolate (afterX afterY : ℕ → K) (x y xNew : List K) : Except Err (List K) :=
  if y.length < 3 then .error .valueError
  else if y.length ≠ x.length then .error .valueError
  else
    match interpolate y.length (fun i => (x[i]?).getD (afterX (i - x.length))) (fun i => (y[i]?).getD (afterY (i - y.length))) xNew with
    | none => .error .valueError
    | some z => .ok z

end Tcrm.AkimaC
