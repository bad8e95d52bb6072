import Verif.Spec.LMoments
import Mathlib.Analysis.SpecialFunctions.Log.Basic
/-!
The generalised extreme value distribution.
-/
namespace Tcrm.Evd

/-- Quantile function of the generalised extreme value distribution (Hosking's sign of the shape); shape
0 is the Gumbel distribution. -/
noncomputable def gevQuantile (loc scale k : ℝ) (u : ℝ) : ℝ :=
  if k = 0 then loc - scale * Real.log (-Real.log u) else loc + scale * (1 - (-Real.log u) ^ k) / k

end Tcrm.Evd
