import Verif.Model.Profiles
import Verif.Model.Boundary
/-!
The compiled routines, wind/windmodels.f90, Utilities/maputils.f90 and PressureInterface/pressureProfile.f90, at one
point of their arrays. Numbers written in the Fortran source are taken exactly (some are stored in single precision
there). The loops are over independent points, so that their parallel execution is not modelled.
-/
namespace Tcrm.Compiled
open Real Tcrm.Boundary

/-- Fortran's `sign(a, b)`: the magnitude of `a` with the sign of `b` (plus for zero). -/
noncomputable def fsign (a b : ℝ) : ℝ := if b < 0 then -|a| else |a|

/-- The arguments of the routines for Holland's profile, wind/windmodels.f90 L140-145. -/
structure Args where
  d2Vm : ℝ
  dVm : ℝ
  rMax : ℝ
  vMax : ℝ
  beta : ℝ
  dP : ℝ
  rho : ℝ
  f : ℝ

/-- wind/windmodels.py L387-390, L429-432: the arguments passed -/
noncomputable def args (s : Profiles.Storm) (d2 : ℝ) : Args :=
  ⟨d2, Profiles.first s, s.rMax, s.vMax, s.beta, s.dP, s.rho, s.f⟩

/-- wind/windmodels.f90 L149-164, also L46-48 and L60-67 -/
noncomputable def rawVel (a : Args) (R : ℝ) : ℝ :=
  let aa := (a.d2Vm / 2 - (a.dVm - a.vMax / a.rMax) / a.rMax) / a.rMax
  let bb := (a.d2Vm - 6 * aa * a.rMax) / 2
  let cc := a.dVm - 3 * aa * a.rMax ^ 2 - 2 * bb * a.rMax
  let delta := (a.rMax / R) ^ a.beta
  let edelta := exp (-delta)
  if R ≤ a.rMax then R * (R * (R * aa + bb) + cc)
  else √(a.dP * a.beta / a.rho * delta * edelta + (R * a.f / 2) ^ 2) - R * |a.f| / 2

/-- wind/windmodels.f90 L140-171 (`fhollandvel`) -/
noncomputable def fhollandvel (a : Args) (R : ℝ) : ℝ := fsign (rawVel a R) a.f

/-- wind/windmodels.f90 L183-203, also L46-48 and L60-75 -/
noncomputable def rawVort (a : Args) (R : ℝ) : ℝ :=
  let aa := (a.d2Vm / 2 - (a.dVm - a.vMax / a.rMax) / a.rMax) / a.rMax
  let bb := (a.d2Vm - 6 * aa * a.rMax) / 2
  let cc := a.dVm - 3 * aa * a.rMax ^ 2 - 2 * bb * a.rMax
  let delta := (a.rMax / R) ^ a.beta
  let edelta := exp (-delta)
  if R ≤ a.rMax then R * (R * 4 * aa + 3 * bb) + 2 * cc
  else |a.f| + (a.beta ^ 2 * a.dP * delta ^ 2 * edelta / (2 * a.rho * R) -
      a.beta ^ 2 * a.dP * delta * edelta / (2 * a.rho * R) + R * a.f ^ 2 / 4) /
      √(a.beta * a.dP * delta * edelta / a.rho + (R * a.f / 2) ^ 2) +
    √(a.beta * a.dP * delta * edelta / a.rho + (R * a.f / 2) ^ 2) / R

/-- wind/windmodels.f90 L174-209 (`fhollandvort`) -/
noncomputable def fhollandvort (a : Args) (R : ℝ) : ℝ := fsign (rawVort a R) a.f

open Classical in
/-- wind/windmodels.f90 L1-137 (`fkerpert`), with `Vm` for `vMax` -/
noncomputable def fkerpert (a : Args) (R lam thetaFm vFm : ℝ) : ℝ × ℝ :=
  let Umod := if vFm > 0 ∧ a.vMax / vFm < 5 then vFm * |1.25 * (1 - vFm / a.vMax)| else vFm
  let V := fsign (rawVel a R) a.f
  let Z := fsign (rawVort a R) a.f
  let Vt := if R > 2 * a.rMax then Umod * exp (-(R / (2 * a.rMax) - 1) ^ 2) else Umod
  let al := (2 * V / R + a.f) / (2 * 50)
  let be := (a.f + Z) / (2 * 50)
  let gam := V / (2 * 50 * R)
  let albe := √(al / be)
  let ind := |gam| > √(al * be)
  let chi := |0.002 / 50 * V / √(√(al * be))|
  let eta := |0.002 / 50 * V / √(√(al * be) + |gam|)|
  let psi := |0.002 / 50 * V / √(abs (√(al * be) - |gam|))|
  let j := Complex.I
  let A0 : ℂ := -(chi * (1 + j * (1 + chi)) * V) / (2 * chi ^ 2 + 3 * chi + 2)
  let u0s := A0.re * albe * fsign 1 a.f
  let v0s := A0.im
  let Am : ℂ := -(psi * (1 + 2 * albe + (1 + j) * (1 + albe) * eta) * Vt)
  let Am := if ind then Am / (albe * (2 - 2 * j + 3 * (eta + psi) + (2 + 2 * j) * eta * psi))
    else Am / (albe * ((2 + 2 * j) * (1 + eta * psi) + 3 * psi + 3 * j * eta))
  let Ap : ℂ := if ind then -(eta * (1 - 2 * albe + (1 - j) * (1 - albe) * psi) * Vt)
    else -(eta * (1 - 2 * albe + (1 + j) * (1 - albe) * psi) * Vt)
  let Ap := if ind then Ap / (albe * (2 + 2 * j + 3 * (eta + psi) + (2 - 2 * j) * eta * psi))
    else Ap / (albe * ((2 + 2 * j) * (1 + eta * psi) + 3 * eta + 3 * j * psi))
  let ums := (Am * Complex.exp (-j * (lam - thetaFm) * fsign 1 a.f)).re * albe
  let vms := (Am * Complex.exp (-j * (lam - thetaFm) * fsign 1 a.f)).im * fsign 1 a.f
  let ups := (Ap * Complex.exp (j * (lam - thetaFm) * fsign 1 a.f)).re * albe
  let vps := (Ap * Complex.exp (j * (lam - thetaFm) * fsign 1 a.f)).im * fsign 1 a.f
  let us := u0s + ups + ums
  let vs := v0s + vps + vms + V
  let usf := us + Vt * cos (lam - thetaFm)
  let vsf := vs - Vt * sin (lam - thetaFm)
  let phi := atan2 usf vsf
  (√(usf ^ 2 + vsf ^ 2) * sin (phi - lam), √(usf ^ 2 + vsf ^ 2) * cos (phi - lam))

/-- wind/windmodels.py L1066-1165 with Holland's (or Powell's) profile when the compiled module is absent -/
noncomputable def kepertPython (s : Profiles.Storm) (R lam thetaFm vFm : ℝ) : Except Profiles.Err (ℝ × ℝ) :=
  match Profiles.holland s R, Profiles.hollandVort s R with
  | .ok V, .ok Z => .ok (kepert s.vMax V Z s.f s.rMax R lam vFm thetaFm)
  | .error e, _ => .error e
  | _, .error e => .error e

/-- Radians, `np.radians` -/
noncomputable def rad (x : ℝ) : ℝ := x * π / 180

/-- Utilities/maputils.py L298-313 (`gridLatLonDist`) and L529 -/
noncomputable def pyDist (cLon cLat lon lat : ℝ) : ℝ :=
  let dLon := rad lon - rad cLon
  let dLat := rad lat - rad cLat
  let a := sin (dLat / 2) ^ 2 + cos (rad cLat) * cos (rad lat) * sin (dLon / 2) ^ 2
  let c := 2 * atan2 (√|a|) (√(1 - a))
  if 6367 * c = 0 then 1e-30 else 6367 * c

/-- Utilities/maputils.py L417-431 (`gridLatLonBear`) and L528 -/
noncomputable def pyTheta (cLon cLat lon lat : ℝ) : ℝ :=
  let dLon := rad lon - rad cLon
  let alpha := sin dLon * cos (rad lat)
  let beta := cos (rad cLat) * sin (rad lat) - sin (rad cLat) * cos (rad lat) * cos dLon
  π / 2 - atan2 alpha beta

/-- Utilities/maputils.f90 L1-65 (`beardist`): distance and angle; `toRads` of L23 is taken as the exact π/180. -/
noncomputable def beardist (cLon cLat lon lat : ℝ) : ℝ × ℝ :=
  let toRads := π / 180
  let cLon_ := cLon * toRads
  let cLat_ := cLat * toRads
  let lon_ := lon * toRads
  let dLon := lon_ - cLon_
  let lat_ := lat * toRads
  let dLat_sin := sin (0.5 * (lat_ - cLat_))
  let dhalfLon_sin := sin (0.5 * dLon)
  let alpha := sin dLon * cos lat_
  let beta := cos cLat_ * sin lat_ - sin cLat_ * cos lat_ * cos dLon
  let a := dLat_sin * dLat_sin + cos cLat_ * cos lat_ * dhalfLon_sin * dhalfLon_sin
  let c := 2 * atan2 (√|a|) (√(1 - a))
  (max (6367 * c) 1e-30, 0.5 * π - atan2 alpha beta)

end Tcrm.Compiled
