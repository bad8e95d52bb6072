import Mathlib.Algebra.Order.Field.Basic
import Mathlib.Algebra.Order.Group.Abs
/-!
Akima's interpolation of track positions: Utilities/akima.py. Numbers are those of an ordered field (no rounding).
Arrays are lists; `numpy` arrays computed from them are functions of the index. The one-dimensional case only: the
checks of the number of dimensions (L129-133) do not arise. The C extension tried first (L176-182) is in Model/AkimaC.lean.
-/
namespace Tcrm.Akima

variable {K : Type} [Field K] [LinearOrder K]

inductive Err where
  | valueError
  deriving DecidableEq

/-- Utilities/akima.py L148: the slopes `m`, for indices below `n - 1`. -/
def slope (x y : List K) (i : ℕ) : K := (y.getD (i + 1) 0 - y.getD i 0) / (x.getD (i + 1) 0 - x.getD i 0)

/-- Utilities/akima.py L149-154: the slopes with two more on either side, `m1` (length `n + 3`). -/
def padded (n : ℕ) (m : ℕ → K) (j : ℕ) : K :=
  if j = 0 then 2 * (2 * m 0 - m 1) - m 0
  else if j = 1 then 2 * m 0 - m 1
  else if j ≤ n then m (j - 2)
  else if j = n + 1 then 2 * m (n - 2) - m (n - 3)
  else 2 * (2 * m (n - 2) - m (n - 3)) - m (n - 2)

/-- Utilities/akima.py L156: `dm` -/
def jump (m1 : ℕ → K) (j : ℕ) : K := |m1 (j + 1) - m1 j|

/-- Utilities/akima.py L157-159: `f12`; `f1[i]` is `dm[i + 2]` and `f2[i]` is `dm[i]`. -/
def weight (m1 : ℕ → K) (i : ℕ) : K := jump m1 (i + 2) + jump m1 i

/-- `numpy.max(f12)` in Utilities/akima.py L161 (`n ≥ 1` entries) -/
def largest (n : ℕ) (f : ℕ → K) : K := (List.range n).foldl (fun a i => max a (f i)) (f 0)

/-- Utilities/akima.py L161-164: the derivatives `b` at the nodes. -/
def deriv (n : ℕ) (m1 : ℕ → K) (i : ℕ) : K :=
  if weight m1 i > 1 / 1000000000 * largest n (weight m1) then
    (jump m1 (i + 2) * m1 (i + 1) + jump m1 i * m1 (i + 2)) / weight m1 i
  else m1 (i + 1)

/-- Utilities/akima.py L168-170: `numpy.digitize` counts the nodes at or below `t` (the nodes increase). -/
def bin (x : List K) (t : K) : ℕ := min (x.countP fun a => decide (a ≤ t)) (x.length - 1) - 1

/-- Utilities/akima.py L141, L165-166, L171-173: the cubic of the interval from node `i` to node `i + 1`. -/
def piece (x y : List K) (b : ℕ → K) (i : ℕ) (t : K) : K :=
  let dx := x.getD (i + 1) 0 - x.getD i 0
  let c := (3 * slope x y i - 2 * b i - b (i + 1)) / dx
  let d := (b i + b (i + 1) - 2 * slope x y i) / dx ^ 2
  let w := t - x.getD i 0
  ((w * d + c) * w + b i) * w + y.getD i 0

/-- Utilities/akima.py L148-173 at one point -/
def value (x y : List K) (t : K) : K :=
  piece x y (deriv x.length (padded x.length (slope x y))) (bin x t) t

/-- Utilities/akima.py L141-143: every difference of neighbours is positive. -/
def increasing : List K → Bool
  | a :: b :: rest => decide (0 < b - a) && increasing (b :: rest)
  | _ => true

/-- Utilities/akima.py L78-173 (`interpolate`), one dimension -/
def interpolate (x y xi : List K) : Except Err (List K) :=
  if x.length < 3 then .error .valueError
  else if x.length ≠ y.length then .error .valueError
  else if increasing x = false then .error .valueError
  else if (xi.any fun t => decide (t < x.getD 0 0)) = true ∨ (xi.any fun t => decide (x.getD (x.length - 1) 0 < t)) = true then
    .error .valueError
  else .ok (xi.map (value x y))

end Tcrm.Akima
