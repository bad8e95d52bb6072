import Verif.Model.Units
import Mathlib.Analysis.SpecialFunctions.Pow.Real
import Mathlib.Analysis.SpecialFunctions.Sqrt
import Mathlib.Analysis.SpecialFunctions.Trigonometric.Basic
import Mathlib.Data.Real.Sign
/-!
Radial wind profiles, wind/windmodels.py, at one radius `R > 0` (metres), over the exact reals; `np.sign` is
`Real.sign`. The Python branches are modelled here, the Fortran routines in `Model/Compiled.lean`.
-/
namespace Tcrm.Profiles
open Real

inductive Err where
  | assertion
  deriving DecidableEq

/-- Utilities/metutils.py L362-375 (`coriolis`) -/
noncomputable def coriolis (lat : ℝ) : ℝ := 2 * (2 * π / 86400) * sin (lat * π / 180)

/-- What the profiles use of `WindProfileModel`, wind/windmodels.py L158-203: `dP` in Pa, `rMax` in metres. -/
structure Storm where
  f : ℝ
  dP : ℝ
  rMax : ℝ
  rho : ℝ
  beta : ℝ
  vMax : ℝ

/-- wind/windmodels.py L107-108 -/
noncomputable def willoughbySpeed (dP : ℝ) : ℝ := 0.6252 * √dP

/-- wind/windmodels.py L123-126 (`rho` is 1.15 there and in the profiles) -/
noncomputable def hollandSpeed (beta dP rho : ℝ) : ℝ := √(beta * dP / (exp 1 * rho))

/-- wind/windmodels.py L268-270 -/
noncomputable def jelesnianski (s : Storm) (R : ℝ) : ℝ :=
  sign s.f * (2 * s.vMax * s.rMax * R / (s.rMax ^ 2 + R ^ 2))

/-- wind/windmodels.py L284-290 -/
noncomputable def jelesnianskiVort (s : Storm) (R : ℝ) : ℝ :=
  let rr := R * 1000
  sign s.f * 2 * s.vMax * s.rMax / (s.rMax ^ 2 + rr ^ 2) +
    sign s.f * 2 * s.vMax * s.rMax * (s.rMax ^ 2 - rr ^ 2) / (s.rMax ^ 2 + rr ^ 2) ^ 2

/-- wind/windmodels.py L511 -/
noncomputable def alpha : ℝ := 0.5

/-- wind/windmodels.py L530-534 -/
noncomputable def rankine (s : Storm) (R : ℝ) : ℝ :=
  sign s.f * (if R ≤ s.rMax then s.vMax * (R / s.rMax) else s.vMax * (s.rMax / R) ^ alpha)

/-- wind/windmodels.py L548-554 -/
noncomputable def rankineVort (s : Storm) (R : ℝ) : ℝ :=
  if R ≤ s.rMax then sign s.f * (s.vMax * (R / s.rMax) + s.vMax / s.rMax)
  else rankine s R / R - alpha * s.vMax * s.rMax / R ^ (alpha + 1)

/-- wind/windmodels.py L332-336 -/
noncomputable def rawSecond (s : Storm) : ℝ :=
  s.beta * s.dP * (-4 * s.beta ^ 3 * s.dP / s.rho - (-2 + s.beta ^ 2) * exp 1 * (|s.f| * s.rMax) ^ 2) /
    (exp 1 * s.rho * √(4 * s.beta * s.dP / (exp 1 * s.rho) + (s.f * s.rMax) ^ 2) *
      (4 * s.beta * s.dP * s.rMax ^ 2 / s.rho + exp 1 * (s.f * s.rMax ^ 2) ^ 2))

/-- wind/windmodels.py L319-348 (`secondDerivative`) -/
noncomputable def second (s : Storm) : Except Err ℝ :=
  let d := if rawSecond s > 0 ∧ |s.dP| < 0.5 then -2 * 1e-11 else rawSecond s
  if d < 0 then .ok d else .error .assertion

/-- wind/windmodels.py L350-366 (`firstDerivative`) -/
noncomputable def first (s : Storm) : ℝ :=
  -|s.f| / 2 + exp 1 * s.f ^ 2 * s.rMax * √(4 * s.beta * s.dP / s.rho / exp 1 + (s.f * s.rMax) ^ 2) /
    (2 * (4 * s.beta * s.dP / s.rho + exp 1 * (s.f * s.rMax) ^ 2))

/-- wind/windmodels.py L393-396: the coefficients of the cubic -/
noncomputable def aa (s : Storm) (d2 d1 : ℝ) : ℝ := (d2 / 2 - (d1 - s.vMax / s.rMax) / s.rMax) / s.rMax
noncomputable def bb (s : Storm) (d2 d1 : ℝ) : ℝ := (d2 - 6 * aa s d2 d1 * s.rMax) / 2
noncomputable def cc (s : Storm) (d2 d1 : ℝ) : ℝ := d1 - 3 * aa s d2 d1 * s.rMax ^ 2 - 2 * bb s d2 d1 * s.rMax

/-- wind/windmodels.py L405 -/
noncomputable def core (s : Storm) (d2 d1 R : ℝ) : ℝ := R * (R * (R * aa s d2 d1 + bb s d2 d1) + cc s d2 d1)

/-- wind/windmodels.py L397 -/
noncomputable def delta (s : Storm) (R : ℝ) : ℝ := (s.rMax / R) ^ s.beta

/-- wind/windmodels.py L397-402 -/
noncomputable def outer (s : Storm) (R : ℝ) : ℝ :=
  √(s.dP * s.beta / s.rho * delta s R * exp (-delta s R) + (R * s.f / 2) ^ 2) - R * |s.f| / 2

/-- wind/windmodels.py L368-407 (`HollandWindProfile.velocity`) -/
noncomputable def holland (s : Storm) (R : ℝ) : Except Err ℝ :=
  match second s with
  | .error e => .error e
  | .ok d2 => .ok (sign s.f * (if R ≤ s.rMax then core s d2 (first s) R else outer s R))

/-- wind/windmodels.py L454 -/
noncomputable def coreVort (s : Storm) (d2 d1 R : ℝ) : ℝ := R * (R * 4 * aa s d2 d1 + 3 * bb s d2 d1) + 2 * cc s d2 d1

/-- wind/windmodels.py L435-446 -/
noncomputable def outerVort (s : Storm) (R : ℝ) : ℝ :=
  |s.f| + (s.beta ^ 2 * s.dP * delta s R ^ 2 * exp (-delta s R) / (2 * s.rho * R) -
      s.beta ^ 2 * s.dP * delta s R * exp (-delta s R) / (2 * s.rho * R) + R * s.f ^ 2 / 4) /
      √(s.beta * s.dP * delta s R * exp (-delta s R) / s.rho + (R * s.f / 2) ^ 2) +
    √(s.beta * s.dP * delta s R * exp (-delta s R) / s.rho + (R * s.f / 2) ^ 2) / R

/-- wind/windmodels.py L409-457 (`HollandWindProfile.vorticity`) -/
noncomputable def hollandVort (s : Storm) (R : ℝ) : Except Err ℝ :=
  match second s with
  | .error e => .error e
  | .ok d2 => .ok (sign s.f * (if R ≤ s.rMax then coreVort s d2 (first s) R else outerVort s R))

/-- wind/windmodels.py L610-614, L698-701 and L749-752 -/
noncomputable def dp2 (dP : ℝ) : ℝ :=
  if dP < 1500 then dP / 1500 * (800 + (dP - 800) / 2000) else 800 + (dP - 800) / 2000

/-- The storm of a double vortex, wind/windmodels.py L603-627. -/
structure Double extends Storm where
  beta1 : ℝ
  beta2 : ℝ
  rMax2 : ℝ

/-- wind/windmodels.py L707-716, before the cubic core -/
noncomputable def doubleOuter (s : Double) (R : ℝ) : ℝ :=
  sign s.f * √(s.beta1 * (s.dP - dp2 s.dP) / s.rho * (s.rMax / R) ^ s.beta1 * exp (-((s.rMax / R) ^ s.beta1)) +
      s.beta2 * dp2 s.dP / s.rho * (s.rMax2 / R) ^ s.beta2 * exp (-((s.rMax2 / R) ^ s.beta2)) + (R * s.f / 2) ^ 2) -
    R * |s.f| / 2

/-- wind/windmodels.py L815-820 (`PowellWindProfile`) -/
noncomputable def powellBeta (lat rMax : ℝ) : ℝ :=
  let b := 1.881093 - 0.010917 * |lat| - 0.005567 * Units.convert rMax "m" "nm"
  let b := if b < 0.8 then 0.8 else b
  if b > 2.2 then 2.2 else b

/-- wind/windmodels.py L629-679 (`DoubleHollandWindProfile.secondDerivative`), without the assertion that the result is
negative; `pow(x, 1.5)` and the sum in the second root are as in the program. -/
noncomputable def doubleSecond (s : Double) : ℝ :=
  let b1 := s.beta1
  let b2 := s.beta2
  let r := s.rMax
  let d2 := dp2 s.dP
  let d1 := s.dP - d2
  let nu := (s.rMax2 / r) ^ b2
  (-1) / (8 * (4 * b1 * d1 / (s.rho * exp 1) + (4 * b2 * d2 / s.rho) * nu * exp (-nu) + (r * s.f) ^ 2) ^ (1.5 : ℝ)) *
      (-(4 * b1 ^ 2 * d1 / (s.rho * r * exp 1)) + (4 * b1 ^ 2 * d1 / (s.rho * r * exp 1)) -
        (4 * b2 ^ 2 * d2 / s.rho) * (nu / r) * exp (-nu) + (4 * b2 ^ 2 * d2 / s.rho) * (nu ^ 2 / r) * exp (-nu) +
        2 * r * s.f ^ 2) ^ 2 +
    1 / (4 * √((4 * b1 * d1 / (s.rho * exp 1)) + (4 * b2 * d2 / s.rho) * nu * 2 + exp (-nu) + (r * s.f) ^ 2)) *
      ((4 * b1 ^ 3 * d1 / (s.rho * r ^ 2 * exp 1)) + (4 * b1 ^ 2 * d1 / (s.rho * r ^ 2 * exp 1)) -
        (12 * b1 ^ 3 * d1 / (s.rho * r ^ 2 * exp 1)) - (4 * b1 ^ 2 * d1 / (s.rho * r ^ 2 * exp 1)) +
        (4 * b1 ^ 3 * d1 / (s.rho * r ^ 2 * exp 1)) + (4 * b2 ^ 3 * d2 / s.rho) * (nu / r ^ 2) * exp (-nu) +
        (4 * b2 ^ 2 * d2 / s.rho) * (nu / r ^ 2) * exp (-nu) - (12 * b2 ^ 3 * d2 / s.rho) * nu ^ 2 / r ^ 2 * exp (-nu) -
        (4 * b2 ^ 2 * d2 / s.rho) * nu ^ 2 / r ^ 2 * exp (-nu) + (4 * b2 ^ 3 * d2 / s.rho) * nu ^ 3 / r ^ 2 * exp (-nu) +
        2 * s.f ^ 2)

/-- wind/windmodels.py L681-733 (`DoubleHollandWindProfile.velocity`) at the radii of a grid.  The maximum wind of the
core is the largest magnitude on the grid. -/
noncomputable def double (s : Double) (grid : List ℝ) : Except Err (List ℝ) :=
  let V := grid.map (doubleOuter s)
  let vMax := ((V.map abs).max?).getD 0
  if doubleSecond s < 0 then
    .ok (grid.map fun R =>
      if 1500 ≤ s.dP ∧ R ≤ s.rMax then sign s.f * core { s.toStorm with vMax := vMax } (doubleSecond s) 0 R
      else doubleOuter s R)
  else .error .assertion

/-- wind/windmodels.py L735-791 (`DoubleHollandWindProfile.vorticity`) -/
noncomputable def doubleVort (s : Double) (R : ℝ) : ℝ :=
  let chi := s.beta1 * (s.dP - dp2 s.dP) / s.rho
  let psi := s.beta2 * dp2 s.dP / s.rho
  let d := (s.rMax / R) ^ s.beta1
  let g := (s.rMax2 / R) ^ s.beta2
  let dd := -s.beta1 * s.rMax ^ s.beta1 / R ^ (s.beta1 + 1)
  let dg := -s.beta2 * s.rMax2 ^ s.beta2 / R ^ (s.beta2 + 1)
  if 1500 ≤ s.dP ∧ R ≤ s.rMax then coreVort { s.toStorm with vMax := sign s.f * s.vMax } (doubleSecond s) 0 R
  else
    sign s.f * √(chi * d * exp (-d) + psi * g * exp (-g) + (s.f * R / 2) ^ 2) / R - |s.f| +
      1 / 2 * (chi * dd * exp (-d) * (1 - d) + psi * dg * exp (-g) * (1 - g) + R * s.f ^ 2) /
        √(chi * d * exp (-d) + psi * g * exp (-g) + (s.f * R / 2) ^ 2)

/-- wind/windmodels.py L841-883 (`NewHollandWindProfile.velocity`); `rGale` is 150 unless given, `rMax` is in metres. -/
noncomputable def newHolland (s : Storm) (lat rGale R : ℝ) : ℝ :=
  let bs := -0.000044 * (s.dP / 100) ^ 2 + 0.01 * (s.dP / 100) - 0.014 * |lat| + 1
  let dg := (s.rMax / rGale) ^ bs
  let rg := bs * s.dP * dg * exp (-1 * dg) / s.rho
  let xn := log 17 / log rg
  let xx := if s.rMax < R then 0.5 + (R - s.rMax) * (xn - 0.5) / (rGale - s.rMax) else 0.5
  let d := (s.rMax / R) ^ bs
  sign s.f * (s.dP * bs / s.rho * d * exp (-d)) ^ xx

end Tcrm.Profiles
