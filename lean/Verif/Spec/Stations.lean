import Verif.Model.Stations
/-!
Specification vocabulary for time series at stations.
-/
namespace Tcrm.Stations

/-- The value `v` lies between two values of the axis. -/
def Within (a : List ℚ) (v : ℚ) : Prop := (∃ lo ∈ a, lo ≤ v) ∧ ∃ hi ∈ a, v ≤ hi

/-- Entry `i` of the axis is as near to `v` as any other, and no earlier one is as near. -/
def FirstNearest (a : List ℚ) (v : ℚ) (i : ℕ) : Prop :=
  ∃ x, a[i]? = some x ∧ (∀ y ∈ a, |x - v| ≤ |y - v|) ∧
    ∀ (j : ℕ) (y : ℚ), j < i → a[j]? = some y → |x - v| < |y - v|

/-- Entry of a table of values in row `j` and column `i`. -/
def Entry {K : Type} (a : List (List K)) (j i : ℕ) (x : K) : Prop := ∃ row, a[j]? = some row ∧ row[i]? = some x

/-- `r` is the record of station `s` for the time step `l`: inside the grid the values at the nearest grid
point, outside no wind and the pressure of the first grid point. -/
structure RecordOf {K : Type} [Zero K] (dir : K → K → K) (s : Station) (l : Layer K) (r : Rec K) : Prop where
  id : r.id = s.id
  time : r.time = l.time
  lon : r.lon = s.lon
  lat : r.lat = s.lat
  inside : Within l.gridx s.lon → Within l.gridy s.lat → ∃ i j, FirstNearest l.gridx s.lon i ∧
    FirstNearest l.gridy s.lat j ∧ Entry l.spd j i r.speed ∧ Entry l.uu j i r.uu ∧ Entry l.vv j i r.vv ∧
    Entry l.prs j i r.pressure ∧ r.bearing = dir r.uu r.vv
  outside : ¬ (Within l.gridx s.lon ∧ Within l.gridy s.lat) →
    r.speed = 0 ∧ r.uu = 0 ∧ r.vv = 0 ∧ r.bearing = 0 ∧ Entry l.prs 0 0 r.pressure

/-- `r` is the first record of the series with the largest wind speed. -/
def FirstMax {K : Type} [LinearOrder K] (d : List (Rec K)) (r : Rec K) : Prop :=
  ∃ pre post, d = pre ++ r :: post ∧ (∀ x ∈ pre, x.speed < r.speed) ∧ ∀ x ∈ post, x.speed ≤ r.speed

/-- `r` is the first record of the series with the lowest pressure. -/
def FirstMin {K : Type} [LinearOrder K] (d : List (Rec K)) (r : Rec K) : Prop :=
  ∃ pre post, d = pre ++ r :: post ∧ (∀ x ∈ pre, r.pressure < x.pressure) ∧ ∀ x ∈ post, r.pressure ≤ x.pressure

/-- Some wind was recorded. -/
def Windy {K : Type} [LinearOrder K] [Zero K] (d : List (Rec K)) : Prop := ∃ r ∈ d, 0 < r.speed

instance {K : Type} [LinearOrder K] [Zero K] (d : List (Rec K)) : Decidable (Windy d) :=
  inferInstanceAs (Decidable (∃ r ∈ d, 0 < r.speed))

end Tcrm.Stations
