import Mathlib.Analysis.Calculus.Deriv.Basic
import Mathlib.Analysis.SpecialFunctions.Trigonometric.Basic
/-!
C193: derivatives and vorticity, stated without reference to the program.
-/
namespace Tcrm.Vorticity.Spec

/-- The number `v` stands for a missing value. -/
def Missing (missing v : ℝ) : Prop := |v - missing| ≤ 1e-8 + 1e-5 * |missing|

/-- The sample before sample `i`; the first sample itself if there is none -/
def before (i : ℕ) : ℕ := i - 1

/-- The sample after sample `i` of `n`; the last sample itself if there is none -/
def after (n i : ℕ) : ℕ := if i + 1 < n then i + 1 else i

/-- `c` lies strictly between `a` and `b`. -/
def Between (a b c : ℝ) : Prop := (a < c ∧ c < b) ∨ (b < c ∧ c < a)

/-- Degrees in radians -/
noncomputable def rad (d : ℝ) : ℝ := d * Real.pi / 180

/-- `w` is a vorticity of the wind `(u, v)` on a sphere of radius `R` about the point of longitude `lam` and latitude
`phi`, in radians: the derivatives are taken at longitude `a` on the same parallel and at latitude `b` on the same
meridian. With `a = lam` and `b = phi` it is the vorticity at the point. -/
def VorticityNear (R : ℝ) (u v : ℝ → ℝ → ℝ) (lam phi a b w : ℝ) : Prop :=
  ∃ dv du, HasDerivAt (fun t => v t phi) dv a ∧ HasDerivAt (fun s => u lam s * Real.cos s) du b ∧
    w = (dv - du) / (R * Real.cos phi)

end Tcrm.Vorticity.Spec
