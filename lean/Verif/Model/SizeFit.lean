import Mathlib.Analysis.SpecialFunctions.Log.Basic
import Mathlib.Analysis.Real.Sqrt
/-!
Fitting the size of cyclones to observations (TrackGenerator/trackSize.py).
-/
namespace Tcrm.SizeFit

open Real

/-- An observation: radius of maximum wind, pressure deficit, latitude -/
structure Obs where
  rmw : ℝ
  dp : ℝ
  lat : ℝ

/-- TrackGenerator/trackSize.py L21-55 (`rmax`) for numbers: coefficients other than three are replaced by the defaults. -/
noncomputable def rmax (dp lat eps : ℝ) (coeffs : List ℝ := [4.22, -0.0198, 0.0023]) : ℝ :=
  match coeffs with
  | [a, b, c] => exp (a + b * dp + c * |lat| + eps)
  | _ => exp (4.22 + -0.0198 * dp + 0.0023 * |lat| + eps)

/-- The residual of a linear combination of the two columns, TrackGenerator/trackSize.py L83-85: `X` has the columns `dp`
and `|lat|`, `y` is the logarithm of the radius. -/
noncomputable def residual (p q : ℝ) (o : Obs) : ℝ := log o.rmw - (p * o.dp + q * |o.lat|)

/-- Sum of squares of the residuals -/
noncomputable def squares (p q : ℝ) (data : List Obs) : ℝ := (data.map fun o => residual p q o ^ 2).sum

/-- Contract of `sm.OLS(y, X).fit().params` (TrackGenerator/trackSize.py L85-87): parameters with the least sum of
squares. -/
def Ols (data : List Obs) (p q : ℝ) : Prop := ∀ p' q', squares p q data ≤ squares p' q' data

/-- Mean -/
noncomputable def mean (l : List ℝ) : ℝ := l.sum / l.length

/-- TrackGenerator/trackSize.py L89-90: `stats.norm.fit(r, …)[1]`, the root of the mean square distance from the mean (the
given starting values have no effect). -/
noncomputable def spread (l : List ℝ) : ℝ := √(mean (l.map fun x => (x - mean l) ^ 2))

/-- TrackGenerator/trackSize.py L57-93 (`fitRmax`): the possible results; `none` is an AssertionError. The arrays are
given separately. -/
def FitRmax (rmw dp lat : List ℝ) (res : Option (List ℝ)) : Prop :=
  if dp.length ≠ lat.length ∨ rmw.length ≠ dp.length then res = none
  else
    let data := (rmw.zip (dp.zip lat)).map fun e => (⟨e.1, e.2.1, e.2.2⟩ : Obs)
    ∃ p q, Ols data p q ∧ res = some [p, q, spread (data.map (residual p q))]

end Tcrm.SizeFit
