import Verif.Model.Cdf
import Mathlib.Analysis.SpecialFunctions.Log.Basic
import Mathlib.Analysis.SpecialFunctions.Trigonometric.Basic
/-!
The fallback distribution of the radius of maximum wind (Utilities/stats.py `rMaxDist`), over the reals.
-/
namespace Tcrm.SizeTable
open Real

/-- `np.arange(1., maxrad, 1.)`, Utilities/stats.py L191 -/
noncomputable def radii (maxrad : ℝ) : List ℝ := (List.range ⌈maxrad - 1⌉₊).map fun (k : ℕ) => 1 + (k : ℝ)

/-- Utilities/stats.py L192-194: the density at the radius `x` -/
noncomputable def density (mean sig x : ℝ) : ℝ :=
  let mu := log mean - 0.5 * sig ^ 2
  exp (-(log x - mu) ^ 2 / (2 * sig ^ 2)) / (x * sig * √(2 * π))

/-- Utilities/stats.py L187-196 (`rMaxDist`): radii, density and distribution function. (`sig` and `mean` above 0.) -/
noncomputable def rMaxDist (mean sig maxrad : ℝ) : Except Cdf.Err (List ℝ × List ℝ × List ℝ) := do
  let x := radii maxrad
  let pdf := x.map (density mean sig)
  let cy ← Cdf.cdf x pdf
  return (x, pdf, cy)

/-- TrackGenerator/TrackGenerator.py L390-392 and L643 (`cdfSize[:, [0, 2]]`): the table of sizes, as it is given to
`ppf`. -/
noncomputable def sizeTable (mean sig : ℝ) : Except Cdf.Err (List (ℝ × ℝ)) := do
  let (x, _, cy) ← rMaxDist mean sig 120
  return x.zip cy

end Tcrm.SizeTable
