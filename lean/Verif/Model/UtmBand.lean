import Mathlib.Data.Rat.Floor
/-!
Latitude bands of the UTM grid, Utilities/lat_long_UTM_conversion.py L157-184. Latitudes are exact rationals.
-/
namespace Tcrm.UtmBand

/-- Utilities/lat_long_UTM_conversion.py L157-184 (`_UTMLetterDesignator`) -/
def letterOf (lat : ℚ) : Char :=
  if 84 ≥ lat ∧ lat ≥ 72 then 'X'
  else if 72 > lat ∧ lat ≥ 64 then 'W'
  else if 64 > lat ∧ lat ≥ 56 then 'V'
  else if 56 > lat ∧ lat ≥ 48 then 'U'
  else if 48 > lat ∧ lat ≥ 40 then 'T'
  else if 40 > lat ∧ lat ≥ 32 then 'S'
  else if 32 > lat ∧ lat ≥ 24 then 'R'
  else if 24 > lat ∧ lat ≥ 16 then 'Q'
  else if 16 > lat ∧ lat ≥ 8 then 'P'
  else if 8 > lat ∧ lat ≥ 0 then 'N'
  else if 0 > lat ∧ lat ≥ -8 then 'M'
  else if -8 > lat ∧ lat ≥ -16 then 'L'
  else if -16 > lat ∧ lat ≥ -24 then 'K'
  else if -24 > lat ∧ lat ≥ -32 then 'J'
  else if -32 > lat ∧ lat ≥ -40 then 'H'
  else if -40 > lat ∧ lat ≥ -48 then 'G'
  else if -48 > lat ∧ lat ≥ -56 then 'F'
  else if -56 > lat ∧ lat ≥ -64 then 'E'
  else if -64 > lat ∧ lat ≥ -72 then 'D'
  else if -72 > lat ∧ lat ≥ -80 then 'C'
  else 'Z'

end Tcrm.UtmBand
