import Mathlib.Analysis.SpecialFunctions.Pow.Real
import Mathlib.Analysis.SpecialFunctions.Gamma.Basic
/-!
L-moments and the parameter estimates based on them, Utilities/lmomentFit.py, over the exact reals.
The optional compiled package `lmoments` (hazard/evd.py L33-40) is not modelled; this is the version
used when it is not installed.
-/
namespace Tcrm.Evd

/-- Exceptions -/
inductive Err where
  | valueError
  | zeroDivision
  | typeError
  deriving DecidableEq

/-- Utilities/lmomentFit.py L323-359 (`samlmu3`): first two L-moments and the L-skewness of data in
ascending order. `xi` are the lower values from the bottom, `xii` the upper values from the top. If all
values are equal the ratio is 0/0: NaN in Python, 0 here. -/
noncomputable def samlmu3 (data : List ℝ) : Except Err (ℝ × ℝ × ℝ) :=
  if data.length ≤ 2 then .error .valueError
  else
    let n := data.length
    let tempo : ℝ := 1 / (2 * n - 4)
    let coef02 := 3 * tempo
    let coef12 := (n + 1) * tempo
    let nhalf := n / 2
    let temp := (List.range nhalf).map fun i : ℕ => -(n : ℝ) + 1 + 2 * i
    let const : ℝ := 1 / (n - 1)
    let xi := data.take nhalf
    let xii := data.reverse.take nhalf
    let termp := List.zipWith (· + ·) xi xii
    let termn := List.zipWith (· - ·) xi xii
    let x0 := termp.sum
    let x1 := (List.zipWith (fun k t => k * t * const) temp termn).sum
    let s := temp.map fun k => k * k * coef02 * const - coef12
    let x2 := (List.zipWith (· * ·) s termp).sum
    let mid := data.getD nhalf 0
    let y0 := if n ≠ nhalf + nhalf then x0 + mid else x0
    let y2 := if n ≠ nhalf + nhalf then x2 - coef12 * mid else x2
    .ok (y0 / n, x1 / n, y2 / x1)

/-- The sequence `S` of the loops in Utilities/lmomentFit.py L272-301 for one value of `temp` (`t`):
`S` for j = 1, 2, 3, ... with `coef` as in L272-275. -/
noncomputable def legendre (n : ℕ) (t : ℝ) : ℕ → ℝ
  | 0 => 0
  | 1 => 1
  | 2 => t * (1 / ((n : ℝ) - 1))
  | j + 3 =>
    let J : ℝ := j + 3
    let c : ℝ := 1 / ((J - 1) * (n - J + 1))
    let a := (J + J - 3) * c
    let b := (J - 2) * (n + J - 2) * c
    a * t * legendre n t (j + 2) - b * legendre n t (j + 1)

/-- The sequence `s` of Utilities/lmomentFit.py L303-309 for the middle value. -/
noncomputable def legendreMid (n : ℕ) : ℕ → ℝ
  | 0 => 0
  | 1 => 1
  | 2 => 0
  | j + 3 =>
    let J : ℝ := j + 3
    let c : ℝ := 1 / ((J - 1) * (n - J + 1))
    let b := (J - 2) * (n + J - 2) * c
    legendreMid n (j + 1) * -b

/-- Sums accumulated for the `j`-th moment by the main loops, Utilities/lmomentFit.py L277-309. -/
noncomputable def momentSum (data : List ℝ) (j : ℕ) : ℝ :=
  let n := data.length
  let nhalf := n / 2
  let pairs := ((List.range nhalf).map fun i : ℕ =>
    let xi := data.getD i 0
    let xii := data.getD (n - 1 - i) 0
    legendre n (-(n : ℝ) - 1 + 2 * (i + 1)) j * (if j % 2 = 1 then xi + xii else xi - xii)).sum
  if n ≠ nhalf + nhalf ∧ j % 2 = 1 then pairs + legendreMid n j * data.getD nhalf 0 else pairs

/-- Utilities/lmomentFit.py L199-320 (`samlmu`). `none` stands for Python's `None`. -/
noncomputable def samlmu (data : List ℝ) (nmom : ℕ) : Except Err (Option (List ℝ)) :=
  if data.length ≤ 2 then .error .valueError
  else if nmom = 3 then
    match samlmu3 data with
    | .error e => .error e
    | .ok m => .ok (some [m.1, m.2.1, m.2.2])
  else if nmom > 100 then .ok none
  else
    let n := data.length
    if nmom ≤ 2 then
      let sum1 := ((List.range n).map fun i => data.getD i 0).sum
      let sum2 := ((List.range n).map fun i : ℕ => data.getD i 0 * (-(n : ℝ) + 1 + 2 * i)).sum
      -- nmom = 0 is an IndexError in Python
      .ok (some (if nmom = 1 then [sum1 / n] else [sum1 / n, sum2 / (n * ((n : ℝ) - 1))]))
    else if n < nmom then .error .zeroDivision
    else if momentSum data 2 = 0 then .ok none
    else .ok (some ([momentSum data 1 / n, momentSum data 2 / n] ++
      (List.range (nmom - 2)).map fun i => momentSum data (i + 3) / momentSum data 2))

/-- Utilities/lmomentFit.py L178-197 (`pelgpa`): location, scale, shape. -/
noncomputable def pelgpa (l1 l2 t3 : ℝ) : ℝ × ℝ × ℝ :=
  if l2 ≤ 0 then (0, 0, 0)
  else if |t3| ≥ 1 then (0, 0, 0)
  else
    let gg := (1 - 3 * t3) / (1 + t3)
    let scale := (1 + gg) * (2 + gg) * l2
    (l1 - scale / (1 + gg), scale, gg)

/-- Rational approximation for positive L-skewness, Utilities/lmomentFit.py L130-131. -/
noncomputable def approxPos (t3 : ℝ) : ℝ :=
  let Z := 1 - t3
  let r := (-1 + Z * (1.59921491 + Z * (-0.48832213 + Z * 0.01573152))) /
    (1 + Z * (-0.64363929 + Z * 0.08985247))
  r

/-- Rational approximation for L-skewness in [-0.8, 0], Utilities/lmomentFit.py L145-146. -/
noncomputable def approxNeg (t3 : ℝ) : ℝ :=
  (0.28377530 + t3 * (-1.21096399 + t3 * (-2.50728214 + t3 * (-1.13455566 + t3 * -0.07138022)))) /
    (1 + t3 * (2.06189696 + t3 * (1.31912239 + t3 * 0.25077104)))

/-- Newton-Raphson iterations, Utilities/lmomentFit.py L153-165: at most `fuel` of them. -/
noncomputable def newton (T0 : ℝ) : ℕ → ℝ → ℝ
  | 0, G => G
  | fuel + 1, G =>
    let x2 : ℝ := (2 : ℝ) ^ (-G)
    let x3 : ℝ := (3 : ℝ) ^ (-G)
    let xx2 := 1 - x2
    let xx3 := 1 - x3
    let T := xx3 / xx2
    let deriv := (xx2 * x3 * 1.0986123 - xx3 * x2 * 0.69314718) / (xx2 * xx2)
    let G' := G - (T - T0) / deriv
    if |G' - G| ≤ 1e-6 * G' then G' else newton T0 fuel G'

/-- Location, scale and shape for a given shape, Utilities/lmomentFit.py L138-142 and L172-176. -/
noncomputable def withShape (l1 l2 G : ℝ) : ℝ × ℝ × ℝ :=
  let gam := Real.Gamma (1 + G)
  let scale := l2 * G / (gam * (1 - (2 : ℝ) ^ (-G)))
  (l1 - scale * (1 - gam) / G, scale, G)

/-- Utilities/lmomentFit.py L44-176 (`pelgev`): location, scale, shape. -/
noncomputable def pelgev (l1 l2 t3 : ℝ) : ℝ × ℝ × ℝ :=
  if l2 ≤ 0 then (0, 0, 0)
  else if |t3| ≥ 1 then (0, 0, 0)
  else if t3 > 0 then
    let G := approxPos t3
    if |G| < 1e-5 then (l1 - 0.57721566 * (l2 / 0.69314718), l2 / 0.69314718, 0)
    else withShape l1 l2 G
  else
    let G := approxNeg t3
    if t3 < -0.8 then
      let G := if t3 ≤ -0.97 then 1 - Real.log (1 + t3) / 0.69314718 else G
      withShape l1 l2 (newton ((t3 + 3) * 0.5) 20 G)
    else withShape l1 l2 G

end Tcrm.Evd
