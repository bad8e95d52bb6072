import Verif.Model.LandMask
import Mathlib.Analysis.SpecialFunctions.Exp
/-!
Filling of a cyclone over land, TrackGenerator/trackLandfall.py L94-119. Numbers are exact reals; the random term is a
parameter.
-/
namespace Tcrm.LandDecay

/-- TrackGenerator/trackLandfall.py L113-116: the rate of filling, for the pressure deficit and the random term -/
noncomputable def rate (deficit eps : ℝ) : ℝ := 0.008 + 0.0008 * deficit + eps

/-- TrackGenerator/trackLandfall.py L94-119 (`pChange`): `tol` is the time over land. -/
noncomputable def pChange (tol eps pCentre pEnv : ℝ) : ℝ :=
  let deficit := pEnv - pCentre
  pEnv - deficit * Real.exp (-rate deficit eps * tol)

/-- A step of a simulation that uses the class (nothing in the code calls `pChange`): TrackGenerator/trackLandfall.py L85-92 (`onLand`) and then L94-119, the pressure put in being the one
that came out the step before. `land` is the answer of the mask; the state is the time over land and the pressure. -/
noncomputable def step (dt pEnv : ℝ) (s : ℝ × ℝ) (x : Bool × ℝ) : ℝ × ℝ :=
  let tol := if x.1 then s.1 + dt else 0
  (tol, pChange tol x.2 s.2 pEnv)

/-- A sequence of steps: for each the answer of the mask and the random term -/
noncomputable def run (dt pEnv : ℝ) (s : ℝ × ℝ) (xs : List (Bool × ℝ)) : ℝ × ℝ := xs.foldl (step dt pEnv) s

end Tcrm.LandDecay
