import Verif.Model.Evaluate
/-!
C189: what a summary of landfalls should report.
-/
namespace Tcrm.LandfallSummary
open Tcrm.Evaluate

/-- The landfalls at a gate in all simulations of a directory: those of the tracks of every file whose name ends with
`nc`. (Which legs are landfalls is C105.) -/
def Landfalls (g : Gate) (dir : List (List Char × List Track)) : List (Obs × Obs) :=
  isLandfall g ((dir.filter fun f => ['n', 'c'].isSuffixOf f.1).flatMap (·.2))

/-- The number of simulations -/
def Simulations (dir : List (List Char × List Track)) : Nat := (dir.filter fun f => ['n', 'c'].isSuffixOf f.1).length

/-- The mean of a list that is not empty -/
def IsMean (vs : List ℚ) (m : ℚ) : Prop := vs ≠ [] ∧ m * vs.length = vs.sum

end Tcrm.LandfallSummary
