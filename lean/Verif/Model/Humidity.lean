import Verif.Model.Units
import Mathlib.Analysis.SpecialFunctions.Exp
import Mathlib.Analysis.SpecialFunctions.Log.Basic
import Mathlib.Analysis.SpecialFunctions.Pow.Real
/-!
Humidity, Utilities/metutils.py, over the exact reals. Unit names are those of `Units.convert`.
-/
namespace Tcrm.Humidity
open Tcrm.Units (convert)

inductive Err where
  | unboundLocal
  deriving DecidableEq

/-- Utilities/metutils.py L19 -/
noncomputable def eps : ℝ := 0.622

/-- Utilities/metutils.py L21-40 (`elevToAirPr`) -/
noncomputable def elevToAirPr (elev : ℝ) (units : String) : ℝ :=
  convert (if elev > 0 then 101.325 * Real.exp (-0.0001184 * elev) else 101.325) "kPa" units

/-- Utilities/metutils.py L42-55 (`vapPrToDewPoint`) -/
noncomputable def vapPrToDewPoint (vp : ℝ) (units : String) : ℝ :=
  (116.9 + 237.3 * Real.log (convert vp units "kPa")) / (16.78 - Real.log (convert vp units "kPa"))

/-- Utilities/metutils.py L57-70 (`dewPointToVapPr`) -/
noncomputable def dewPointToVapPr (t : ℝ) (units : String) : ℝ :=
  convert (Real.exp ((16.78 * t - 116.9) / (t + 237.3))) "kPa" units

/-- Utilities/metutils.py L138-163 (`satVapPr`) -/
noncomputable def satVapPr (t : ℝ) (units : String) : ℝ :=
  convert (Real.exp ((16.78 * t - 116.9) / (t + 237.3))) "kPa" units

/-- Utilities/metutils.py L106-136 (`wetBulbToVapPr`) -/
noncomputable def wetBulbToVapPr (db wb elev : ℝ) (units : String) : ℝ :=
  let w := if wb > db then db else wb
  convert (satVapPr w "kPa" - 0.00066 * (1 + 0.00115 * w) * elevToAirPr elev "kPa" * (db - w)) "kPa" units

/-- Utilities/metutils.py L88-104 (`wetBulbToDewPoint`) -/
noncomputable def wetBulbToDewPoint (db wb elev : ℝ) : ℝ := vapPrToDewPoint (wetBulbToVapPr db wb elev "kPa") "kPa"

/-- Utilities/metutils.py L72-86 (`wetBulbGlobeTemp`) -/
noncomputable def wetBulbGlobeTemp (dew temp : ℝ) : ℝ := 0.567 * temp + 0.393 * dewPointToVapPr dew "kPa" + 3.94

/-- Utilities/metutils.py L165-192 (`vapPrToRH`) -/
noncomputable def vapPrToRH (vp sat : ℝ) : ℝ :=
  let rh := if sat = 0 then 100 else vp / sat * 100
  if rh > 100 then 100 else if rh < 0 then 0 else rh

/-- Utilities/metutils.py L194-222 (`wetBulbToRH`): the vapour pressure in the default unit, hPa. -/
noncomputable def wetBulbToRH (db wb elev : ℝ) : ℝ :=
  vapPrToRH (wetBulbToVapPr db wb elev "hPa") (satVapPr db "kPa")

/-- Utilities/metutils.py L236-237 -/
noncomputable def magnus (t : ℝ) : ℝ := 6.11 * (10 : ℝ) ^ (7.5 * t / (237.3 + t))

/-- Utilities/metutils.py L224-242 (`dewPointToRH`) -/
noncomputable def dewPointToRH (dry dew : ℝ) : Option ℝ :=
  let rh := magnus dew / magnus dry * 100
  if rh > 100 ∨ rh < 0 then none else some rh

/-- Utilities/metutils.py L244-263 (`rHToDewPoint`) -/
noncomputable def rHToDewPoint (rh dry : ℝ) : Except Err (Option ℝ) :=
  let vap := rh / 100 * satVapPr dry "kPa"
  if vap > 0 then
    .ok (if vapPrToDewPoint vap "kPa" > dry then none else some (vapPrToDewPoint vap "kPa"))
  else .error .unboundLocal

/-- Utilities/metutils.py L265-280 (`vapPrToMixRat`) -/
noncomputable def vapPrToMixRat (es prs : ℝ) : ℝ := eps * es / (prs - es)

/-- Utilities/metutils.py L282-293 (`mixRatToVapPr`) -/
noncomputable def mixRatToVapPr (rat prs : ℝ) : ℝ := rat * prs / (eps + rat)

/-- Utilities/metutils.py L295-306 (`vapPrToSpHum`) -/
noncomputable def vapPrToSpHum (es prs : ℝ) : ℝ := eps * es / prs

/-- Utilities/metutils.py L308-324 (`spHumToMixRat`) -/
noncomputable def spHumToMixRat (q : ℝ) (units : String) : ℝ :=
  eps * convert q units "kgkg" / (eps - convert q units "kgkg")

/-- Utilities/metutils.py L326-342 (`rHToMixRat`) -/
noncomputable def rHToMixRat (rh tmp prs : ℝ) (units : String) : ℝ :=
  vapPrToMixRat (rh / 100 * satVapPr (convert tmp units "C") "hPa") prs

/-- Utilities/metutils.py L344-360 (`spHumToRH`) -/
noncomputable def spHumToRH (q tmp prs : ℝ) : ℝ := 100 * q / (eps * satVapPr tmp "hPa" / prs)

/-- The difference computed in Utilities/metutils.py L529-532 at the wet bulb temperature `w`. -/
noncomputable def wetBulbDiff (t td prs w : ℝ) : ℝ :=
  satVapPr td "hPa" - (satVapPr w "hPa" - prs * (t - w) * 0.00066 * (1 + 0.00115 * w))

/-- The search of Utilities/metutils.py L528-551, at most `n` rounds, with `w` and `incr` and whether the last
direction was upwards; before the rounding in L553. `none`: not finished. -/
noncomputable def wetBulbSearch (g : ℝ → ℝ) : ℕ → ℝ → ℝ → Bool → Option ℝ
  | 0, _, _, _ => none
  | n + 1, w, incr, up =>
    if |g w| ≤ 0.05 then some w
    else
      let up' := decide (¬g w < 0)
      let incr' := if up' = up then incr else incr / 10
      wetBulbSearch g n (w + (if up' then incr' else -incr')) incr' up'

end Tcrm.Humidity
