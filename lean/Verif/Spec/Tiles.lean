import Verif.Model.Tiles
/-!
Specification vocabulary for the tiling property: when an index pair is requested
by the user, and when a tile handed to the hazard calculation covers it.
-/
namespace Tcrm.Tiles

/-- The coordinates along an axis of a wind field run one way: longitudes to the east, latitudes in the
stored wind fields to the south. -/
def IsAxis (l : List Int) : Prop := l.Pairwise (· ≤ ·) ∨ l.Pairwise (· ≥ ·)

/-- The grid point with column `i` and row `j` lies in the requested domain. -/
def Requested (lon lat : List Int) (xLo xHi yLo yHi : Int) (i j : Nat) : Prop :=
  (∃ x, lon[i]? = some x ∧ xLo ≤ x ∧ x ≤ xHi) ∧ (∃ y, lat[j]? = some y ∧ yLo ≤ y ∧ y ≤ yHi)

/-- The (half-open) limits cover column `i` and row `j`. -/
def Limits.Covers (l : Limits) (i j : Int) : Prop :=
  l.x1 ≤ i ∧ i < l.x2 ∧ l.y1 ≤ j ∧ j < l.y2

end Tcrm.Tiles
