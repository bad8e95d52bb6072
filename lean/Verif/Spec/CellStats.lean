import Verif.Model.CellStats
import Verif.Spec.Extract
/-!
Vocabulary for C135: what it means that numbers describe a sample.
-/
namespace Tcrm.CellStats
open Tcrm.Extract Tcrm.Cells

/-- `mu` and `sig` are mean and standard deviation of the sample. -/
def Describes (p : List ℝ) (mu sig : ℝ) : Prop :=
  p.length * mu = p.sum ∧ 0 ≤ sig ∧ p.length * sig ^ 2 = (p.map fun x => (x - mu) ^ 2).sum

/-- For angles in degrees: `mu` (radians, within a turn) is a direction closest to the angles of the sample, and `sig`
grows with the mean distance from it (measured by `1 - cos`). -/
def DescribesAngles (p : List ℝ) (mu sig : ℝ) : Prop :=
  0 ≤ mu ∧ mu < 2 * Real.pi ∧
  (∀ m, (p.map fun x => 1 - Real.cos (x * Real.pi / 180 - mu)).sum ≤
    (p.map fun x => 1 - Real.cos (x * Real.pi / 180 - m)).sum) ∧
  0 ≤ sig ∧ p.length * sig ^ 2 = (p.map fun x => 1 - Real.cos (x * Real.pi / 180 - mu)).sum

/-- `alpha` is the autocorrelation at lag one (about zero), and `phi` complements it. -/
def Correlated (p : List ℝ) (alpha phi : ℝ) : Prop :=
  alpha * (p.map fun x => x ^ 2).sum = (List.zipWith (· * ·) p.tail p).sum ∧ -1 < alpha ∧ alpha < 1 ∧ 0 < phi ∧
    alpha ^ 2 + phi ^ 2 = 1

/-- The sample in terms of real numbers. -/
def reals (p : List ℚ) : List ℝ := p.map fun q : ℚ => (q : ℝ)

/-- What the coefficients of cell `c` must be: they describe the valid observations in a window around the cell that
has more than the minimum of them, over land if the domain has enough such observations and the storm is over land. -/
def RightFor (J : Job) (nx c : ℕ) (onLand : Bool) (k : Coef) : Prop :=
  ∃ (w : Win) (sel : ℚ → Bool), w.Inside J.gl ∧ w.Contains (cellBox J.gl J.gs nx c) ∧
    Good J.minSample (valuesIn J.obs J.missing sel w) ∧
    (onLand = false → ∀ f, sel f = true ↔ f = 0) ∧
    (onLand = true → (∀ f, sel f = true ↔ 0 < f) ∨ ((∀ f, sel f = true ↔ f = 0) ∧
      ¬ Good J.minSample (valuesIn J.obs J.missing (fun f => 0 < f) (wholeDomain J.gl)))) ∧
    Correlated (reals (valuesIn J.obs J.missing sel w)) k.alpha k.phi ∧
    (J.angular = false → Describes (reals (valuesIn J.obs J.missing sel w)) k.mu k.sigma) ∧
    (J.angular = true → DescribesAngles (reals (valuesIn J.obs J.missing sel w)) k.mu k.sigma)

end Tcrm.CellStats
