import Verif.Model.SimRates
import Verif.Spec.Evaluate
/-!
What is reported of all simulations.
-/
namespace Tcrm.SimRates
open Tcrm.Evaluate

/-- The share of gate `j` in a list of gates crossed -/
def share (l : List Nat) (j : Nat) : ℚ := (l.count j : ℚ) / l.length

/-- The density of the values `ys` in the `i`-th interval: zero without any values -/
noncomputable def densityAt (ys edges : List ℚ) (i : Nat) : ℚ :=
  open Classical in
  if ys = [] then 0 else (ys.countP fun y => decide (InCell edges i y) : ℕ) / (ys.length * (edges.getD (i + 1) 0 - edges.getD i 0))

/-- At position `i` the mean and the 95th and 5th percentile of the values `v`, one for each simulation, are reported. -/
def ReportedAt (rs : List Rate) (i : Nat) (v : List ℚ) : Prop := rs[i]? = some ⟨mean v, percentile v 95, percentile v 5⟩

end Tcrm.SimRates
