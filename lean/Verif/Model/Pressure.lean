import Verif.Model.Profiles
import Mathlib.Analysis.SpecialFunctions.Log.Basic
/-!
Radial pressure profiles, PressureInterface/pressureProfile.py, at one radius `R > 0` (kilometres), over the exact
reals. Pressures are in Pa.
-/
namespace Tcrm.Pressure
open Real

/-- PressureInterface/pressureProfile.py L146-164 (`holland`), and `fhollandpressure`, pressureProfile.f90 L1-25 -/
noncomputable def holland (pc penv rMax beta R : ℝ) : ℝ := pc + (penv - pc) * exp (-(rMax / R) ^ beta)

/-- PressureInterface/pressureProfile.py L176-178 -/
noncomputable def willoughbyBeta (pc penv rMax lat : ℝ) : ℝ :=
  1.0036 + 0.0173 * (0.6252 * √(penv - pc)) - 0.313 * log rMax + 0.0087 * |lat|

/-- wind/windmodels.py L482-488 (`WilloughbyWindProfile`), `rMax` in metres, for pressures of at least 10000 Pa -/
noncomputable def windWilloughbyBeta (pc penv rMax lat : ℝ) : ℝ :=
  1.0036 + 0.0173 * (0.6252 * √(penv - pc)) - 0.0313 * log (rMax / 1000) + 0.0087 * |lat|

/-- PressureInterface/pressureProfile.py L166-180 (`willoughby`), for pressures of at least 10000 Pa and not below
the central pressure (`vmax` of L176 converts or refuses others) -/
noncomputable def willoughby (pc penv rMax lat R : ℝ) : ℝ :=
  holland pc penv rMax (willoughbyBeta pc penv rMax lat) R

/-- PressureInterface/pressureProfile.py L182-189 (`schloemer`) -/
noncomputable def schloemer (pc penv rMax R : ℝ) : ℝ := holland pc penv rMax 1 R

/-- PressureInterface/pressureProfile.py L202-205 -/
noncomputable def dp2 (dP : ℝ) : ℝ :=
  if dP < 1500 then dP / 1500 * (800 + (dP - 800) / 2000) else 800 + (dP - 800) / 2000

/-- PressureInterface/pressureProfile.py L206 -/
noncomputable def dp1 (dP : ℝ) : ℝ := dP - dp2 dP

/-- PressureInterface/pressureProfile.py L207-210 -/
noncomputable def defaultBeta1 (pc : ℝ) : ℝ := 7.3 - pc / 16000
noncomputable def defaultBeta2 (pc : ℝ) : ℝ := 7.2 - pc / 16000

/-- wind/windmodels.py L623-627 (`DoubleHollandWindProfile`), the central pressure in Pa -/
noncomputable def windDefaultBetas (pc : ℝ) : ℝ × ℝ := (7.3 - pc / 16000, 7.2 - pc / 16000)

/-- PressureInterface/pressureProfile.py L191-241 (`doubleHolland`) -/
noncomputable def doubleHolland (pc penv rMax rMax2 : ℝ) (beta1 beta2 : Option ℝ) (R : ℝ) : ℝ :=
  pc + dp1 (penv - pc) * exp (-(rMax / R) ^ beta1.getD (defaultBeta1 pc)) +
    dp2 (penv - pc) * exp (-(rMax2 / R) ^ beta2.getD (defaultBeta2 pc))

/-- PressureInterface/pressureProfile.py L254-260 -/
noncomputable def powellBeta (lat rMax : ℝ) : ℝ :=
  let b := 1.881093 - 0.010917 * |lat| - 0.005567 * rMax
  if b < 0.8 then 0.8 else if b > 2.2 then 2.2 else b

/-- PressureInterface/pressureProfile.py L243-263 (`powell`) -/
noncomputable def powell (pc penv rMax lat R : ℝ) : ℝ := holland pc penv rMax (powellBeta lat rMax) R

end Tcrm.Pressure
