import Mathlib.Probability.Independence.Basic
import Mathlib.MeasureTheory.Measure.Lebesgue.Basic
/-!
Random numbers.
-/
namespace Tcrm.Autoreg
open MeasureTheory ProbabilityTheory

/-- `U 0`, `U 1`, ... are independent and uniformly distributed between 0 and 1. -/
structure Spec.Uniform {Ω : Type} [MeasurableSpace Ω] (P : Measure Ω) (U : ℕ → Ω → ℝ) : Prop where
  measurable : ∀ n, Measurable (U n)
  law : ∀ n, P.map (U n) = volume.restrict (Set.Ioo 0 1)
  independent : iIndepFun U P

end Tcrm.Autoreg
