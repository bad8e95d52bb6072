import Mathlib.Analysis.Calculus.Deriv.Basic
import Mathlib.Analysis.SpecialFunctions.Trigonometric.Basic
/-!
C192: the linear boundary layer of a moving storm (Kepert 2001), stated without reference to the program.  `z` is
the height above the surface and `s` the direction from the centre, measured anti-clockwise from the direction of
motion.
-/
namespace Tcrm.Boundary.Spec

/-- `u` is twice continuously differentiable in the height, with derivatives `uz` and `uzz`, and continuously
differentiable in the direction, with derivative `us`, and it is periodic in the direction. -/
structure Smooth (u uz uzz us : ℝ → ℝ → ℝ) : Prop where
  height : ∀ z s, HasDerivAt (fun x => u x s) (uz z s) z
  height2 : ∀ z s, HasDerivAt (fun x => uz x s) (uzz z s) z
  around : ∀ z s, HasDerivAt (u z) (us z s) s
  cont : Continuous (Function.uncurry u)
  contz : Continuous (Function.uncurry uz)
  contzz : Continuous (Function.uncurry uzz)
  conts : Continuous (Function.uncurry us)
  periodic : ∀ z s, u z (s + 2 * Real.pi) = u z s

/-- `u` and `v` are the radial and the tangential wind the boundary layer adds to the wind of a storm that moves
with speed `t`, at a radius `R` where the wind of the profile is `V` and its vorticity `Z`: they balance advection
around the storm, rotation and vertical diffusion with diffusivity 50; they vanish far above the surface; and at
the surface the stress is the drag, with coefficient 0.002, of the total wind `(u + t cos s, V + v - t sin s)`,
linear in its difference to `(0, V)`. -/
def Layer (f R V Z t : ℝ) (u v : ℝ → ℝ → ℝ) : Prop :=
  ∃ uz uzz us vz vzz vs : ℝ → ℝ → ℝ, Smooth u uz uzz us ∧ Smooth v vz vzz vs ∧
    (∀ z s, 0 ≤ z → V / R * us z s - (2 * V / R + f) * v z s = 50 * uzz z s) ∧
    (∀ z s, 0 ≤ z → V / R * vs z s + (f + Z) * u z s = 50 * vzz z s) ∧
    (∀ s, 50 * uz 0 s = 0.002 * |V| * (u 0 s + t * Real.cos s)) ∧
    (∀ s, 50 * vz 0 s = 0.002 * |V| * (V + 2 * (v 0 s - t * Real.sin s))) ∧
    ∀ ε > 0, ∃ h, ∀ z s, h ≤ z → |u z s| < ε ∧ |v z s| < ε

end Tcrm.Boundary.Spec
