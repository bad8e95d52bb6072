import Mathlib.MeasureTheory.Integral.IntegrableOn
import Mathlib.MeasureTheory.Measure.Lebesgue.Basic
import Mathlib.Analysis.SpecialFunctions.Exp
import Verif.Model.GustFiles
/-!
The distribution of the annual maxima of a simulation, and the record of them at a place.
-/
namespace Tcrm.Annual
open MeasureTheory

/-- `Q` is the quantile function of the annual maxima, if `lam` storms are expected per year and a storm brings more than `v` with the
probability `exceed v`: a year has no storm above `v` with the probability `exp (-(lam * exceed v))`. The maxima have a mean. -/
structure Spec.MaximumQuantile (lam : ℝ) (exceed : ℝ → ℝ) (Q : ℝ → ℝ) : Prop where
  nonneg : ∀ u ∈ Set.Ioo (0 : ℝ) 1, 0 ≤ Q u
  least : ∀ u ∈ Set.Ioo (0 : ℝ) 1, ∀ v ≥ 0, Q u ≤ v ↔ u ≤ Real.exp (-(lam * exceed v))
  mean : IntegrableOn Q (Set.Ioo 0 1)

/-- `record` lists what the hazard calculation reads from the directory `dir` for row `y`, column `x` of the tile `t`: one value for each of
`n` years. -/
def Spec.Record (dir : List (GustFiles.Name × Option (ℕ → ℕ → ℝ))) (t : GustFiles.Tile) (y x n : ℕ) (record : List ℝ) : Prop :=
  List.Forall₂ (fun i w => ∃ f, GustFiles.aggregate dir t i = some f ∧ f y x = w) (List.range n) record

end Tcrm.Annual
