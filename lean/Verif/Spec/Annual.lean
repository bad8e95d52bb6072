import Verif.Spec.Counts
import Verif.Model.GustFiles
/-!
Simulated years with random numbers of independent storms.
-/
namespace Tcrm.Annual
open MeasureTheory ProbabilityTheory

/-- All the random quantities: numbers of storms, and wind speeds -/
def Spec.quantities {Ω : Type} (N : ℕ → Ω → ℕ) (W : ℕ → ℕ → Ω → ℝ) : ℕ ⊕ ℕ × ℕ → Ω → ℝ
  | .inl i, ω => N i ω
  | .inr c, ω => W c.1 c.2 ω

/-- `N i` storms in year `i`, a Poisson number with expected value `lam`, of which storm `k` brings the wind speed `W i k` to the place: the
numbers and the wind speeds are independent of each other, and the wind speeds have all the same distribution. -/
structure Spec.Storms {Ω : Type} [MeasurableSpace Ω] (P : Measure Ω) (lam : ℝ) (N : ℕ → Ω → ℕ) (W : ℕ → ℕ → Ω → ℝ) : Prop where
  rate : 0 ≤ lam
  measurable : ∀ i, Measurable (N i)
  measurableW : ∀ i k, Measurable (W i k)
  count : ∀ i k, P {ω | N i ω = k} = ENNReal.ofReal (Counts.Spec.chance lam k)
  same : ∀ i k, P.map (W i k) = P.map (W 0 0)
  independent : iIndepFun (Spec.quantities N W) P

/-- The storms of the first `n` years with their wind fields: number of the storm, year, wind speeds -/
def Spec.storms {Ω : Type} (N : ℕ → Ω → ℕ) (fields : ℕ → ℕ → Ω → ℕ → ℕ → ℝ) (n : ℕ) (ω : Ω) : List ((ℕ × ℕ) × (ℕ → ℕ → ℝ)) :=
  (List.range n).flatMap fun i => (List.range (N i ω)).map fun k => ((k + 1, i), fields i k ω)

/-- The directory holds the wind-field files of the storms `l`, in whatever order it is listed. -/
def Spec.Holds (dir : List (GustFiles.Name × Option (ℕ → ℕ → ℝ))) (l : List ((ℕ × ℕ) × (ℕ → ℕ → ℝ))) : Prop :=
  dir.Perm (l.map fun e => (GustFiles.gustName e.1, some e.2))

open Classical in
/-- The share of those among the first `n` years for which `A` holds -/
noncomputable def Spec.share (A : ℕ → Prop) (n : ℕ) : ℝ := ((Finset.range n).filter fun i => A i).card / n

end Tcrm.Annual
