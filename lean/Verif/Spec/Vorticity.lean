import Mathlib.Analysis.Calculus.Deriv.Basic
/-!
Vorticity of a circular vortex, for C74.
-/
namespace Tcrm.Profiles

/-- `z` is the vertical component of the vorticity, at radius `r`, of a vortex with tangential wind `v`. -/
def IsVorticity (v : ℝ → ℝ) (r z : ℝ) : Prop := ∃ v', HasDerivAt v v' r ∧ z = v' + v r / r

end Tcrm.Profiles
