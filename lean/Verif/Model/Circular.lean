import Mathlib.Analysis.SpecialFunctions.Complex.Arg
/-!
Statistics of angles (Utilities/stats.py), over the reals.
-/
namespace Tcrm.Circular
open Complex

/-- `np.mean(np.exp(1j * ang))` -/
noncomputable def resultant (ang : List ℝ) : ℂ :=
  (ang.map fun a : ℝ => exp (I * (a : ℂ))).sum / (ang.length : ℂ)

/-- `(samples - low) * 2 * np.pi / (high - low)` -/
noncomputable def scaled (samples : List ℝ) (high low : ℝ) : List ℝ :=
  samples.map fun s => (s - low) * 2 * Real.pi / (high - low)

/-- Utilities/stats.py L199-208 (`circmean`) -/
noncomputable def circmean (samples : List ℝ) (high low : ℝ) : ℝ :=
  let res := arg (resultant (scaled samples high low))
  let res := if res < 0 then res + 2 * Real.pi else res
  res * (high - low) / 2 / Real.pi + low

/-- Utilities/stats.py L211-219 (`circvar`) -/
noncomputable def circvar (samples : List ℝ) (high low : ℝ) : ℝ :=
  ((high - low) / 2 / Real.pi) ^ 2 * (1 - ‖resultant (scaled samples high low)‖)

/-- Utilities/stats.py L222-230 (`circstd`) -/
noncomputable def circstd (samples : List ℝ) (high low : ℝ) : ℝ :=
  (high - low) / 2 / Real.pi * Real.sqrt (1 - ‖resultant (scaled samples high low)‖)

end Tcrm.Circular
