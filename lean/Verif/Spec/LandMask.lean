import Verif.Model.LandMask
import Verif.Spec.CellStats
/-!
Vocabulary for C169: where a land mask shows land.
-/
namespace Tcrm.LandMask
open Tcrm.Grid Tcrm.Extract Tcrm.Cells

/-- A mask as the program expects it: ascending coordinates, a value for each grid point, the rows stored from north
to south. -/
structure WellFormed (g : Grd) : Prop where
  lon : g.lon.Pairwise (· < ·)
  lat : g.lat.Pairwise (· < ·)
  rows : g.data.length = g.lat.length
  columns : ∀ row ∈ g.data, row.length = g.lon.length

/-- A position that the mask reaches. -/
def Reaches (g : Grd) (lon lat : ℚ) : Prop := 0 ≤ lon ∧ lon < 360 ∧ (∃ x ∈ g.lon, lon ≤ x) ∧ ∃ y ∈ g.lat, lat ≤ y

/-- `i` is the first of the coordinates that is not below `v`. -/
def NextUp (a : List ℚ) (v : ℚ) (i : ℕ) : Prop :=
  (∃ x, a[i]? = some x ∧ v ≤ x) ∧ ∀ (k : ℕ) (z : ℚ), k < i → a[k]? = some z → z < v

/-- The mask shows land at a position: the value of the next grid point to the north-east is positive. -/
def Land (g : Grd) (lon lat : ℚ) : Prop :=
  ∃ i j row v, NextUp g.lon lon i ∧ NextUp g.lat lat j ∧ g.data.reverse[j]? = some row ∧ row[i]? = some (some v) ∧ 0 < v

open Classical in
/-- The valid values (longitude, latitude, value) observed in a window at positions with a property. -/
noncomputable def valuesWhere (raw : List (ℚ × ℚ × ℚ)) (missing : ℚ) (P : ℚ → ℚ → Prop) (w : Win) : List ℚ :=
  (raw.filter fun o => decide (w.w ≤ o.1 ∧ o.1 < w.e ∧ w.s ≤ o.2.1 ∧ o.2.1 < w.n ∧ P o.1 o.2.1 ∧ o.2.2 ≠ missing ∧
    o.2.2 < 9223372036854775807)).map (·.2.2)

/-- The number of positions at the end of a list that are over land without a break. -/
def Ashore (g : Grd) (l : List (ℚ × ℚ)) (n : ℕ) : Prop :=
  n ≤ l.length ∧ (∀ p ∈ l.drop (l.length - n), Land g p.1 p.2) ∧
    (n < l.length → ∃ p, l[l.length - n - 1]? = some p ∧ ¬ Land g p.1 p.2)

/-- What the coefficients of cell `c` must be for a storm over land (`land`) or sea: they describe the valid values
observed over land (sea) in a window around the cell that has more than the minimum of them; those over sea if the
domain has too few over land. -/
def RightByMask (g : Grd) (raw : List (ℚ × ℚ × ℚ)) (J : CellStats.Job) (nx c : ℕ) (land : Prop) (k : CellStats.Coef) :
    Prop :=
  ∃ (w : Win) (P : ℚ → ℚ → Prop), w.Inside J.gl ∧ w.Contains (cellBox J.gl J.gs nx c) ∧
    Good J.minSample (valuesWhere raw J.missing P w) ∧
    (¬ land → P = fun x y => ¬ Land g x y) ∧
    (land → P = Land g ∨ P = (fun x y => ¬ Land g x y) ∧
      ¬ Good J.minSample (valuesWhere raw J.missing (Land g) (wholeDomain J.gl))) ∧
    CellStats.Correlated (CellStats.reals (valuesWhere raw J.missing P w)) k.alpha k.phi ∧
    (J.angular = false → CellStats.Describes (CellStats.reals (valuesWhere raw J.missing P w)) k.mu k.sigma) ∧
    (J.angular = true → CellStats.DescribesAngles (CellStats.reals (valuesWhere raw J.missing P w)) k.mu k.sigma)

end Tcrm.LandMask
