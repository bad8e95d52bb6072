import Verif.Model.TextGrid
/-!
The meaning of a text grid.
-/
namespace Tcrm.TextGrid

open Tcrm.Grid (Header)

/-- Centre of the cell in the row `k` from the north and the column `i` from the west of a text grid, whose header gives the
lower left corner of the lower left cell -/
def centre (h : Header) (k i : ℕ) : ℚ × ℚ :=
  (h.xll + (i + 1 / 2) * h.cellsize, h.yll + (h.nrows - 1 - k + 1 / 2) * h.cellsize)

/-- The text grid shows the grid: it has a cell for each point of the grid and no other cell, centred at the point and
holding its value. -/
def SameMap (fmt : ℚ → ℚ) (g : Nc) (h : Header) (lines : List (List ℚ)) : Prop :=
  h.ncols = g.lons.length ∧ h.nrows = g.lats.length ∧
  (∀ (k i : ℕ) (row : List ℚ) (v : ℚ), lines[k]? = some row → row[i]? = some v →
    ∃ (j : ℕ) (y x : ℚ) (r : List ℚ) (u : ℚ), g.lats[j]? = some y ∧ g.lons[i]? = some x ∧ g.data[j]? = some r ∧
      r[i]? = some u ∧ v = fmt u ∧ centre h k i = (x, y)) ∧
  ∀ (j i : ℕ) (r : List ℚ) (u : ℚ), g.data[j]? = some r → r[i]? = some u →
    ∃ (k : ℕ) (row : List ℚ), lines[k]? = some row ∧ row[i]? = some (fmt u)

/-- Values of a line of points at a given distance -/
def line (a d : ℚ) (n : ℕ) : List ℚ := (List.range n).map fun i : ℕ => a + i * d

/-- The data have a row for each latitude with a value for each longitude. -/
def Nc.Shaped (g : Nc) : Prop := g.data.length = g.lats.length ∧ ∀ r ∈ g.data, r.length = g.lons.length

end Tcrm.TextGrid
