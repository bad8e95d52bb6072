import Mathlib.Data.Real.Archimedean
import Verif.Model.Cdf
/-!
Values drawn at the beginning of a storm, from numbers between 0 and 1.  Longitude and latitude (`Cdf.sampleOrigin`) and the
values of the tables of a cell (`Cdf.ppf`) are modelled in Model/Cdf.lean; here are the draws which use their number in another
way.  Numbers are real: rounding is not modelled.
-/
namespace Tcrm.Draws
open Tcrm.Cdf

/-- `Generator.uniform(low, high)`, Utilities/tcrandom.py L41-42, from a number `u` between 0 and 1 -/
noncomputable def between (low high u : ℝ) : ℝ := low + (high - low) * u

/-- TrackGenerator/TrackGenerator.py L630-635: the pressure at the beginning, below that of the surroundings `env`.
`table[ix - 1]` is the last row for `ix = 0`; an empty table raises `IndexError`. -/
noncomputable def pressure (table : List (ℝ × ℝ)) (env u : ℝ) : Except Err ℝ :=
  let ix := searchsorted (table.map (·.1)) env
  match (table.map (·.2))[if ix = 0 then table.length - 1 else ix - 1]? with
  | none => .error .indexError
  | some upperProb => ppf (between 0 upperProb u) table

/-- TrackGenerator/TrackGenerator.py L609: the hour of the day -/
noncomputable def hour (u : ℝ) : ℤ := ⌊between 0 24 u⌋

/-- TrackGenerator/TrackGenerator.py L555: the year -/
noncomputable def year (u : ℝ) : ℤ := ⌊between 1900 9998 u⌋

end Tcrm.Draws
