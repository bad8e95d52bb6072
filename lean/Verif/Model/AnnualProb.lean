import Mathlib.Analysis.SpecialFunctions.Exp
/-!
Annual probabilities of return periods, Utilities/stats.py L278-281. Numbers are exact reals.
-/
namespace Tcrm.AnnualProb

inductive Err | zeroDivision
deriving DecidableEq

/-- Utilities/stats.py L278-281 (`probability`), for a number; a return period of 0 is a ZeroDivisionError (for an array of
numpy it is a warning and infinity, not modelled). -/
noncomputable def probability (returnPeriod : ℝ) : Except Err ℝ :=
  if returnPeriod = 0 then .error .zeroDivision
  else .ok (1 - Real.exp (-1 / returnPeriod))

end Tcrm.AnnualProb
