import Verif.Model.Units
import Mathlib.Analysis.SpecialFunctions.Pow.Real
import Mathlib.Analysis.SpecialFunctions.Sqrt
/-!
Wind-pressure relations, wind/vmax.py, over the exact reals.
-/
namespace Tcrm.Vmax
open Tcrm.Units (convert)

inductive Err where
  | valueError
  | notImplemented
  /-- not an exception: numpy returns NaN, for a negative number to a power that is no integer -/
  | nan
  deriving DecidableEq

/-- wind/vmax.py L83-87 and L128-129: pressures below 10000 are in hPa -/
noncomputable def toPa (p : ℝ) : ℝ := if p < 10000 then convert p "hPa" "Pa" else p

/-- wind/vmax.py L59-118 (`vmax`) -/
noncomputable def vmax (pCentre pEnv : ℝ) (type : String) (beta rho : ℝ) : Except Err ℝ :=
  let pc := toPa pCentre
  let pe := toPa pEnv
  if pe < pc then .error .valueError
  else
    let dP := pe - pc
    if type = "willoughby" then .ok (0.6252 * Real.sqrt dP)
    else if type = "holland" then .ok (Real.sqrt (beta * dP / (Real.exp 1 * rho)))
    else if type = "atkinson" then
      if 1010 - convert pc "Pa" "hPa" < 0 then .error .nan
      else .ok (3.04 * (1010 - convert pc "Pa" "hPa") ^ (0.644 : ℝ))
    else .error .notImplemented

/-- wind/vmax.py L121-142 (`pDiff`), for `vMax` not negative -/
noncomputable def pDiff (vMax pEnv : ℝ) (type : String) (beta rho : ℝ) : Except Err ℝ :=
  let pe := toPa pEnv
  if type = "willoughby" then .ok (pe - (vMax / 0.6252) ^ 2)
  else if type = "holland" then .ok (pe - rho * Real.exp 1 * vMax ^ 2 / beta)
  else if type = "atkinson" then .ok (pe - convert ((vMax / 3.04) ^ (1 / 0.644 : ℝ)) "hPa" "Pa")
  else .error .notImplemented

end Tcrm.Vmax
