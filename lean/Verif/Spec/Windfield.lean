import Verif.Model.Windfield
/-!
Specification vocabulary for the regional wind field.
-/
namespace Tcrm.Windfield

/-- Wind speed of a triple (Ux, Vy, P). -/
noncomputable def speed (w : ℝ × ℝ × ℝ) : ℝ := Real.sqrt (w.1 ^ 2 + w.2.1 ^ 2)

/-- `c` records the extremes of the contributions `ws` (in time order): the gust is their maximum
wind speed and the direction and components are those of the first contribution attaining it
(all zero if no contribution has a positive wind speed); the pressure is the minimum of the
contributed pressures and the initial pressure. -/
structure Extreme (dir : ℝ → ℝ → ℝ) (p0 : ℝ) (ws : List (ℝ × ℝ × ℝ)) (c : Cell) : Prop where
  upper : ∀ w ∈ ws, speed w ≤ c.gust
  attained : (c.gust = 0 ∧ c.bearing = 0 ∧ c.ux = 0 ∧ c.uy = 0) ∨
    ∃ pre w post, ws = pre ++ w :: post ∧ (∀ v ∈ pre, speed v < speed w) ∧ 0 < speed w ∧
      c.gust = speed w ∧ c.bearing = dir w.1 w.2.1 ∧ c.ux = w.1 ∧ c.uy = w.2.1
  lower : c.pressure ≤ p0 ∧ ∀ w ∈ ws, c.pressure ≤ w.2.2
  attained_p : c.pressure = p0 ∨ ∃ w ∈ ws, c.pressure = w.2.2

/-- Index of the southern (western) edge of the window of a storm at `c` (degrees) in a region
whose limit is `lo`, for a grid step of `r` hundredths of a degree. -/
def firstIndex (c lo : ℚ) (r : ℤ) : ℤ := (pyInt (100 * c) - pyInt (100 * lo)) / r

/-- Number of grid steps in twice the margin. -/
def steps (M r : ℤ) : ℤ := 2 * M / r

/-- What a time step contributes to cell `(j, i)` of the regional grid: nothing if the storm is
outside the region or the cell outside its window, otherwise the wind at the corresponding point
of the local grid. `M` is the margin and `r` the grid step in hundredths of a degree. -/
noncomputable def contribution (gl : Limits) (M r : ℤ) (j i : ℕ) (t : TimeStep) : Option (ℝ × ℝ × ℝ) :=
  let y := (j : ℤ) - firstIndex t.lat gl.yMin r
  let x := (i : ℤ) - firstIndex t.lon gl.xMin r
  if inRegion gl t ∧ 0 ≤ y ∧ y ≤ steps M r ∧ 0 ≤ x ∧ x ≤ steps M r then
    some (t.wind (pyInt (1000 * t.lat) - 10 * M + 10 * r * y) (pyInt (1000 * t.lon) - 10 * M + 10 * r * x))
  else none

end Tcrm.Windfield
