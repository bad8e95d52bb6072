import Mathlib.Data.Rat.Floor
import Verif.Model.DataProc
/-!
Limits of a domain in double precision: Utilities/stats.py L284-314 (`between`) and its use in
DataProcess/DataProcess.py L116-154 (`extractTracks`). The exact model of the latter (DataProc) leaves out the widening
of the limits.

A double is given by its rank, an integer: the bit pattern without the sign bit, negated for negative numbers (both zeros
are 0, they compare equal). Infinities and NaN are left out, and the range of the exponent is not limited above.
-/
namespace Tcrm.Fuzzy

/-- IEEE 754 binary64: the magnitude with the bit pattern `n` (exponent field `n / 2^52`, fraction `n % 2^52`). -/
def magnitude (n : ℕ) : ℚ :=
  if n < 2 ^ 52 then n * (2 : ℚ) ^ (-1074 : ℤ)
  else ((2 ^ 52 + n % 2 ^ 52 : ℕ) : ℚ) * (2 : ℚ) ^ (((n / 2 ^ 52 : ℕ) : ℤ) - 1075)

/-- The number a double stands for. -/
def value (k : ℤ) : ℚ := if k < 0 then -magnitude k.natAbs else magnitude k.natAbs

/-- `numpy.nextafter(x, y)`: one step on the bit pattern towards `y` (the rounding of `y` does not change on which side of
`x` it is, in the uses below with `x` less than 2^70). -/
def nextafter (x : ℤ) (y : ℚ) : ℤ :=
  if y < value x then x - 1 else if value x < y then x + 1 else x

/-- Utilities/stats.py L306-308: the loop `for _ in range(fuzz)` that expands the bounds. -/
def expand : ℕ → ℤ → ℤ → ℤ × ℤ
  | 0, lo, hi => (lo, hi)
  | n + 1, lo, hi => expand n (nextafter lo (value lo - 1000000)) (nextafter hi (value hi + 1000000))

/-- Utilities/stats.py L284-314 (`between`) -/
def between (v lo hi : ℤ) (fuzz : ℕ) (inclusive : Bool) : Bool :=
  let b := expand fuzz lo hi
  if inclusive then decide (value b.1 ≤ value v) && decide (value v ≤ value b.2)
  else decide (value b.1 < value v) && decide (value v < value b.2)

/-- The four limits of a domain. -/
structure Box where
  xMin : ℤ
  xMax : ℤ
  yMin : ℤ
  yMax : ℤ

/-- An observation; `index` is 1 at the start of a track. -/
structure Obs where
  index : ℤ
  lon : ℤ
  lat : ℤ

/-- DataProcess/DataProcess.py L136-152: one turn of the loop; state is the list of indices (in order), the flag and the
current index. -/
def extractStep (b : Box) (s : List ℕ × Bool × ℕ) (o : Obs) : List ℕ × Bool × ℕ :=
  if o.index = 1 then
    if between o.lon b.xMin b.xMax 2 true && between o.lat b.yMin b.yMax 2 true then
      (s.1 ++ [s.2.2], true, s.2.2 + 1)
    else (s.1, false, s.2.2 + 1)
  else if s.2.1 then (s.1 ++ [s.2.2], true, s.2.2 + 1) else (s.1, false, s.2.2 + 1)

/-- DataProcess/DataProcess.py L116-154 (`extractTracks`) -/
def extractTracks (b : Box) (obs : List Obs) : List ℕ := (obs.foldl (extractStep b) ([], false, 0)).1

end Tcrm.Fuzzy
