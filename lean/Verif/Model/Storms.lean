import Verif.Model.Profiles
import Verif.Model.Units
import Mathlib.Analysis.SpecialFunctions.Pow.Real
/-!
How a wind profile is set up from pressures, radius and maximum wind: `WindProfileModel` and the models of the maximum
wind (wind/windmodels.py).
-/
namespace Tcrm.Storms

open Real Tcrm.Units

/-- wind/windmodels.py L70-73, L80-83, L169-177: a pressure below 10000 is taken to be in hPa. -/
noncomputable def toPa (p : ℝ) : ℝ := if p < 10000 then convert p "hPa" "Pa" else p

/-- The models of the maximum wind, wind/windmodels.py L99-141. -/
inductive SpeedModel where
  | willoughby
  | holland
  | atkinson

/-- The attributes of a profile, wind/windmodels.py L158-177; `beta` as set by the subclasses, `vMaxSet` is `vMax_`. -/
structure Profile where
  lat : ℝ
  eP : ℝ
  cP : ℝ
  rMax : ℝ
  beta : ℝ
  speed : SpeedModel
  vMaxSet : Option ℝ

/-- wind/windmodels.py L158-177 (`WindProfileModel.__init__`) -/
noncomputable def create (speed : SpeedModel) (lat eP cP rMax beta : ℝ) : Profile :=
  { lat := lat, eP := toPa eP, cP := toPa cP, rMax := rMax, beta := beta, speed := speed, vMaxSet := none }

/-- wind/windmodels.py L195-202: the setter of `vMax` -/
def setVMax (p : Profile) (v : ℝ) : Profile := { p with vMaxSet := some v }

/-- wind/windmodels.py L107-108, L123-126, L138-141 (`maximum`), with the pressures of L65-90, which are converted once
more. `none`: `math.sqrt` of a negative number raises; the power of a negative number is complex, also `none` here. -/
noncomputable def maximum (p : Profile) : Option ℝ :=
  let dP := toPa p.eP - toPa p.cP
  match p.speed with
  | .willoughby => if dP < 0 then none else some (0.6252 * √dP)
  | .holland => if p.beta * dP / (exp 1 * 1.15) < 0 then none else some (√(p.beta * dP / (exp 1 * 1.15)))
  | .atkinson =>
    let cP := convert (toPa p.cP) "Pa" "hPa"
    if 1010 - cP < 0 then none else some (3.04 * (1010 - cP) ^ (0.644 : ℝ))

open Classical in
/-- wind/windmodels.py L186-194: the getter of `vMax`; a value of 0 counts as not set. -/
noncomputable def vMax (p : Profile) : Option ℝ :=
  match p.vMaxSet with
  | some v => if v ≠ 0 then some v else maximum p
  | none => maximum p

/-- What the profiles calculate with (wind/windmodels.py L158-203, `f` from L166). -/
noncomputable def storm (p : Profile) (v : ℝ) : Profiles.Storm :=
  { f := Profiles.coriolis p.lat, dP := p.eP - p.cP, rMax := p.rMax, rho := 1.15, beta := p.beta, vMax := v }

end Tcrm.Storms
