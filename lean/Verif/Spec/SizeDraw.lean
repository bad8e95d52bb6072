import Mathlib.Probability.Independence.Basic
import Mathlib.Probability.Distributions.Gaussian.Real
/-!
Normally distributed random numbers.
-/
namespace Tcrm.SizeDraw
open MeasureTheory ProbabilityTheory

/-- `E 0`, `E 1`, ... are independent, normally distributed with mean 0 and standard deviation `s`. -/
structure Spec.Normal {Ω : Type} [MeasurableSpace Ω] (P : Measure Ω) (s : NNReal) (E : ℕ → Ω → ℝ) : Prop where
  measurable : ∀ n, Measurable (E n)
  law : ∀ n, P.map (E n) = gaussianReal 0 (s ^ 2)
  independent : iIndepFun E P

end Tcrm.SizeDraw
