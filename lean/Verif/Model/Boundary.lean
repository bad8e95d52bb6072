import Mathlib.Analysis.SpecialFunctions.Complex.Arg
import Mathlib.Analysis.SpecialFunctions.Sqrt
import Mathlib.Analysis.SpecialFunctions.Trigonometric.Basic
import Mathlib.Data.Real.Sign
/-!
Boundary-layer wind fields, wind/windmodels.py, at one grid point, over the exact reals; `np.sign` is `Real.sign`.
-/
namespace Tcrm.Boundary
open Real

/-- `np.arctan2(y, x)` -/
noncomputable def atan2 (y x : ℝ) : ℝ := Complex.arg ⟨x, y⟩

/-- wind/windmodels.py L984-987: the inflow angle of Hubbert's wind field, in degrees, before the sign of the
hemisphere -/
noncomputable def hubbertInflow (rMax R : ℝ) : ℝ := if R < rMax then 0 else 25

/-- wind/windmodels.py L989-991: the surface wind of Hubbert's wind field; `V` is the wind of the profile. -/
noncomputable def hubbertSpeed (V lam vFm thetaFm thetaMax : ℝ) : ℝ :=
  0.70 * V + vFm * cos (thetaFm + thetaMax * π / 180 - lam + π)

/-- wind/windmodels.py L981-998 (`HubbertWindField.field`): the two components of the wind -/
noncomputable def hubbert (f rMax V R lam vFm thetaFm thetaMax : ℝ) : ℝ × ℝ :=
  let phi := -sign f * hubbertInflow rMax R * π / 180 - lam
  let vsf := hubbertSpeed V lam vFm thetaFm thetaMax
  (vsf * sin phi * 1.069, vsf * cos phi * 1.069)

/-- wind/windmodels.py L1027-1031: the inflow angle of McConochie's wind field, in degrees, before the sign of the
hemisphere -/
noncomputable def mcInflow (rMax R : ℝ) : ℝ :=
  if R < rMax then 10 * R / rMax else if R < 1.2 * rMax then 10 + 75 * (R / rMax - 1) else 25

/-- wind/windmodels.py L1042-1048: the surface wind reduction factor -/
noncomputable def swrf (v : ℝ) : ℝ :=
  if |v| ≥ 45 then 0.66
  else if |v| ≥ 19.5 then 0.77 - 4.31 * (|v| - 19.5) / 1000
  else if |v| ≥ 6 then 0.81 - 2.93 * (|v| - 6) / 1000
  else 0.81

/-- wind/windmodels.py L1034, L1037-1039; `peak` is `np.abs(V).max()` over the grid. -/
noncomputable def mcSpeed (V peak lam vFm thetaFm thetaMax : ℝ) : ℝ :=
  V + 0.5 * (1 + cos (thetaFm + thetaMax * π / 180 - lam)) * vFm * (V / peak)

/-- wind/windmodels.py L1012-1054 (`McConochieWindField.field`) -/
noncomputable def mcconochie (f rMax V peak R lam vFm thetaFm thetaMax : ℝ) : ℝ × ℝ :=
  let phi := -sign f * mcInflow rMax R * π / 180 - lam
  let vsf := mcSpeed V peak lam vFm thetaFm thetaMax
  (swrf vsf * vsf * sin phi * 1.069, swrf vsf * vsf * cos phi * 1.069)

/-- wind/windmodels.py L1103-1106 -/
noncomputable def umod (Vm vFm : ℝ) : ℝ := if vFm > 0 ∧ Vm / vFm < 5 then vFm * |1.25 * (1 - vFm / Vm)| else vFm

/-- wind/windmodels.py L1107-1110 -/
noncomputable def vt (Vm vFm rMax R : ℝ) : ℝ :=
  if R > 2 * rMax then umod Vm vFm * exp (-(R / (2 * rMax) - 1) ^ 2) else umod Vm vFm

/-- wind/windmodels.py L1112, with K = 50 of L1082 -/
noncomputable def al (V f R : ℝ) : ℝ := (2 * V / R + f) / (2 * 50)

/-- wind/windmodels.py L1113 -/
noncomputable def be (Z f : ℝ) : ℝ := (f + Z) / (2 * 50)

/-- wind/windmodels.py L1114 -/
noncomputable def gam (V R : ℝ) : ℝ := V / (2 * 50 * R)

/-- wind/windmodels.py L1119, with Cd = 0.002 of L1083 -/
noncomputable def chi (V a b : ℝ) : ℝ := |0.002 / 50 * V / √(√(a * b))|

/-- wind/windmodels.py L1120 -/
noncomputable def eta (V a b g : ℝ) : ℝ := |0.002 / 50 * V / √(√(a * b) + |g|)|

/-- wind/windmodels.py L1121-1122 -/
noncomputable def psi (V a b g : ℝ) : ℝ := |0.002 / 50 * V / √(abs (√(a * b) - |g|))|

/-- wind/windmodels.py L1125 -/
noncomputable def a0 (V x : ℝ) : ℂ := -(x * (1 + Complex.I * (1 + x)) * V) / (2 * x ^ 2 + 3 * x + 2)

/-- wind/windmodels.py L1118, L1131-1136; `ab` is `albe`, `n` eta and `p` psi. -/
noncomputable def am (third : Prop) [Decidable third] (ab n p t : ℝ) : ℂ :=
  if third then -(p * (1 + 2 * ab + (1 + Complex.I) * (1 + ab) * n) * t) /
    (ab * (2 - 2 * Complex.I + 3 * (n + p) + (2 + 2 * Complex.I) * n * p))
  else -(p * (1 + 2 * ab + (1 + Complex.I) * (1 + ab) * n) * t) /
    (ab * ((2 + 2 * Complex.I) * (1 + n * p) + 3 * p + 3 * Complex.I * n))

/-- wind/windmodels.py L1142-1147 -/
noncomputable def ap (third : Prop) [Decidable third] (ab n p t : ℝ) : ℂ :=
  if third then -(n * (1 - 2 * ab + (1 - Complex.I) * (1 - ab) * p) * t) /
    (ab * (2 + 2 * Complex.I + 3 * (n + p) + (2 - 2 * Complex.I) * n * p))
  else -(n * (1 - 2 * ab + (1 + Complex.I) * (1 - ab) * p) * t) /
    (ab * ((2 + 2 * Complex.I) * (1 + n * p) + 3 * n + 3 * Complex.I * p))

open Classical in
/-- wind/windmodels.py L1101-1158: radial and tangential surface wind; `V` and `Z` are wind and vorticity of the
profile, `Vm` its maximum wind. Where the code takes the root of a negative number its result is NaN, here it is the
real number Lean's square root of 0 gives. -/
noncomputable def kepertPolar (Vm V Z f rMax R lam vFm thetaFm : ℝ) : ℝ × ℝ :=
  let t := vt Vm vFm rMax R
  let a := al V f R
  let b := be Z f
  let g := gam V R
  let ab := √(a / b)
  let third := |g| > √(a * b)
  let x := chi V a b
  let n := eta V a b g
  let p := psi V a b g
  let u0s := (a0 V x).re * ab * sign f
  let v0s := (a0 V x).im
  let ums := (am third ab n p t * Complex.exp (-Complex.I * (lam - thetaFm) * sign f)).re * ab
  let vms := (am third ab n p t * Complex.exp (-Complex.I * (lam - thetaFm) * sign f)).im * sign f
  let ups := (ap third ab n p t * Complex.exp (Complex.I * (lam - thetaFm) * sign f)).re * ab
  let vps := (ap third ab n p t * Complex.exp (Complex.I * (lam - thetaFm) * sign f)).im * sign f
  (u0s + ups + ums + t * cos (lam - thetaFm), v0s + vps + vms + V - t * sin (lam - thetaFm))

/-- wind/windmodels.py L1066-1165 (`KepertWindField.field`), the Python branch -/
noncomputable def kepert (Vm V Z f rMax R lam vFm thetaFm : ℝ) : ℝ × ℝ :=
  let p := kepertPolar Vm V Z f rMax R lam vFm thetaFm
  let phi := atan2 p.1 p.2
  (√(p.1 ^ 2 + p.2 ^ 2) * sin (phi - lam), √(p.1 ^ 2 + p.2 ^ 2) * cos (phi - lam))

/-- wind/__init__.py L937, L114 and wind/windmodels.py L989 or L1034: the angle the field uses, in radians, for the
configured `thetaMax` in degrees -/
noncomputable def usedTheta (deg : ℝ) : ℝ := deg * (π / 180) * (π / 180) * π / 180

end Tcrm.Boundary
