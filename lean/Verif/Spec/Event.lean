import Verif.Model.Event
/-!
What the map of a wind field shows.
-/
namespace Tcrm.Event

open Tcrm.Windfield Tcrm.WindRun

/-- A coordinate, in hundredths of a degree, is within limits in degrees. -/
def Within (lo hi : ℚ) (x : ℤ) : Prop := lo ≤ (x : ℚ) / 100 ∧ (x : ℚ) / 100 ≤ hi

/-- The map shows the gusts of the file at its coordinates within the region, or everywhere without a region, and nothing
else. -/
def Shows (region : Option Limits) (f : File) (m : Map) : Prop :=
  (∀ x, x ∈ m.lons ↔ x ∈ f.lons ∧ ∀ gl, region = some gl → Within gl.xMin gl.xMax x) ∧
  (∀ y, y ∈ m.lats ↔ y ∈ f.lats ∧ ∀ gl, region = some gl → Within gl.yMin gl.yMax y) ∧
  m.gust.length = m.lats.length ∧ (∀ row ∈ m.gust, row.length = m.lons.length) ∧
  ∀ (j i : ℕ) (row : List ℝ) (v : ℝ), m.gust[j]? = some row → row[i]? = some v →
    ∃ (j' i' : ℕ) (y x : ℤ), f.lats[j']? = some y ∧ f.lons[i']? = some x ∧ m.lats[j]? = some y ∧ m.lons[i]? = some x ∧
      v = (f.field j' i').gust

end Tcrm.Event
