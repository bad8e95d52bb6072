import Verif.Model.Evaluate
/-!
Specification of the quantile plot, in terms of tracks.
-/
namespace Tcrm.QuantilePlot.Spec
open Tcrm.Evaluate

/-- `v` is the lowest pressure of the track. -/
def Lowest (t : Track) (v : ℚ) : Prop := (∃ o ∈ t, o.pressure = v) ∧ ∀ o ∈ t, v ≤ o.pressure

/-- The track starts in the region. -/
def Starts (g : Limit) (t : Track) : Prop :=
  ∃ o rest, t = o :: rest ∧ g.xMin ≤ o.lon ∧ o.lon ≤ g.xMax ∧ g.yMin ≤ o.lat ∧ o.lat ≤ g.yMax

/-- `lows` are the lowest pressures of the tracks that start in the region, one each, in order. -/
inductive Lows (g : Limit) : List Track → List ℚ → Prop
  | nil : Lows g [] []
  | starts {t ts v vs} : Starts g t → Lowest t v → Lows g ts vs → Lows g (t :: ts) (v :: vs)
  | elsewhere {t ts vs} : ¬ Starts g t → Lows g ts vs → Lows g (t :: ts) vs

/-- `x` is a value at percentile `per` of the data: there are enough values not above it, and not too many below it. -/
def AtPercentile (data : List ℚ) (per x : ℚ) : Prop :=
  per / 100 * (data.length - 1) < (data.countP fun v => decide (v ≤ x) : ℕ) ∧
    ((data.countP fun v => decide (v < x) : ℕ) : ℚ) < per / 100 * (data.length - 1) + 1

/-- Every draw is of one of the values. -/
def Draws (data : List ℚ) (draw : Nat → Nat → Nat) : Prop := ∀ n k, draw n k < data.length

/-- `vs` are the hundred values drawn for sample `n`. -/
def Drawn (data : List ℚ) (draw : Nat → Nat → Nat) (n : Nat) (vs : List ℚ) : Prop :=
  vs.length = 100 ∧ ∀ k, k < 100 → vs[k]? = data[draw n k]?

/-- `x` is at percentile `c` of the values that a thousand samples have at percentile `per`. -/
def Bound (data : List ℚ) (draw : Nat → Nat → Nat) (per c x : ℚ) : Prop :=
  ∃ s : List ℚ, s.length = 1000 ∧ AtPercentile s c x ∧
    ∀ n, n < 1000 → ∃ v vs, s[n]? = some v ∧ Drawn data draw n vs ∧ AtPercentile vs per v

/-- All pressures of the tracks are positive, and every track has a record. -/
def Positive (tracks : List Track) : Prop := ∀ t ∈ tracks, t ≠ [] ∧ ∀ o ∈ t, 0 < o.pressure

end Tcrm.QuantilePlot.Spec
