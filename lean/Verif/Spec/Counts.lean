import Mathlib.Probability.Independence.Basic
import Mathlib.Analysis.SpecialFunctions.Exp
/-!
Random counts.
-/
namespace Tcrm.Counts
open MeasureTheory ProbabilityTheory

/-- Probability of `k` events if `lam` are expected, and the events are independent of each other (Poisson distribution) -/
noncomputable def Spec.chance (lam : ℝ) (k : ℕ) : ℝ := Real.exp (-lam) * lam ^ k / k.factorial

/-- `K lam 0`, `K lam 1`, ... are independent, and have the Poisson distribution with expected value `lam`. -/
structure Spec.Poisson {Ω : Type} [MeasurableSpace Ω] (P : Measure Ω) (K : ℝ → ℕ → Ω → ℕ) : Prop where
  measurable : ∀ lam i, Measurable (K lam i)
  law : ∀ lam, 0 ≤ lam → ∀ i k, P {ω | K lam i ω = k} = ENNReal.ofReal (Spec.chance lam k)
  independent : ∀ lam, iIndepFun (K lam) P

end Tcrm.Counts
