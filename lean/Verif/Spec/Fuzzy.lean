import Verif.Model.Fuzzy
import Mathlib.Data.Set.Card
/-!
Specification vocabulary for C185: the numbers that double precision can represent, independent of bit patterns.
-/
namespace Tcrm.Fuzzy

/-- `q` is representable: a whole number of less than 53 bits times a power of two that is not too small. -/
def Representable (q : ℚ) : Prop := ∃ (m e : ℤ), |m| < 2 ^ 53 ∧ -1074 ≤ e ∧ q = m * (2 : ℚ) ^ e

/-- `v` is not below `lo` by more than `n` representable numbers. -/
def NotFarBelow (n : ℕ) (v lo : ℚ) : Prop :=
  {u : ℚ | Representable u ∧ v ≤ u ∧ u < lo}.Finite ∧ {u : ℚ | Representable u ∧ v ≤ u ∧ u < lo}.ncard ≤ n

/-- `v` is not above `hi` by more than `n` representable numbers. -/
def NotFarAbove (n : ℕ) (v hi : ℚ) : Prop :=
  {u : ℚ | Representable u ∧ hi < u ∧ u ≤ v}.Finite ∧ {u : ℚ | Representable u ∧ hi < u ∧ u ≤ v}.ncard ≤ n

/-- The position is in the domain, or not more than two representable numbers outside. -/
def Near (b : Box) (o : Obs) : Prop :=
  NotFarBelow 2 (value o.lon) (value b.xMin) ∧ NotFarAbove 2 (value o.lon) (value b.xMax) ∧
  NotFarBelow 2 (value o.lat) (value b.yMin) ∧ NotFarAbove 2 (value o.lat) (value b.yMax)

/-- Observation `i` belongs to a track whose first observation satisfies `P`. -/
def StartsWith (P : Obs → Prop) (obs : List Obs) (i : ℕ) : Prop :=
  ∃ (k : ℕ) (o : Obs), k ≤ i ∧ obs[k]? = some o ∧ o.index = 1 ∧ P o ∧
    ∀ (j : ℕ) (p : Obs), k < j → j ≤ i → obs[j]? = some p → p.index ≠ 1

end Tcrm.Fuzzy
