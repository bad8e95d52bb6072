import Verif.Model.Arange64
/-!
The bounds that make cells evenly spaced, Utilities/stats.py. Arguments are doubles.
-/
namespace Tcrm.StatRange
open Tcrm.Binary64 Tcrm.Cells

/-- The checks of the arguments and `ran[-1]` -/
def bound (minval maxval step : ℚ) (ran : List ℚ) : Except Err ℚ :=
  if maxval < minval then .error .valueError
  else if step ≤ 0 then .error .valueError
  else match ran.getLast? with
    | none => .error .indexError
    | some x => .ok x

/-- Utilities/stats.py L160-171 (`statMaxRange`) -/
def statMaxRange (minval maxval step : ℚ) : Except Err ℚ :=
  bound minval maxval step (Arange64.arange minval (fl (maxval + step)) step)

/-- Utilities/stats.py L174-184 (`statMinRange`) -/
def statMinRange (minval maxval step : ℚ) : Except Err ℚ :=
  bound minval maxval step (Arange64.arange maxval (fl (minval - step)) (-step))

end Tcrm.StatRange
