import Verif.Model.TrackGen
/-!
Specification vocabulary for generated tracks.
-/
namespace Tcrm.TrackGen
open Tcrm.Cells

variable {G N : Type}

/-- A position inside the model domain (west and north edges included). -/
def InDomain (gl : Limit) (lon lat : ℚ) : Prop :=
  gl.xMin ≤ lon ∧ lon < gl.xMax ∧ gl.yMin < lat ∧ lat ≤ gl.yMax

/-- What every time step after genesis satisfies: it is inside the domain, moves with
non-negative speed on a bearing in `[0, 360)`, and its pressure deficit is at least 2 hPa up to
hour 12 and at least 5 hPa after. -/
structure GoodStep (gl : Limit) (r : Row) : Prop where
  inside : InDomain gl r.lon r.lat
  speed : 0 ≤ r.speed
  bearing : 0 ≤ r.bearing ∧ r.bearing < 360
  deficit : ∃ p e, r.pressure = some p ∧ r.poci = some e ∧
    (12 < r.age → 5 ≤ e - p) ∧ (r.age ≤ 12 → 2 ≤ e - p)

/-- The new position is where the previous step's bearing and speed lead in one time step. -/
def Follows (env : Env N) (a b : Row) : Prop :=
  (b.lon, b.lat) = env.move a.bearing (env.dt * a.speed) a.lon a.lat

/-- The requirements on a track that is returned: at least 12 hours long, more than 1 hPa deep
at genesis, everywhere deeper than its environment, between 5 and 500 km in size and below 100 km
at genesis, and inside the inner domain if there is one. -/
structure ValidTrack (inner : Option Limit) (rows : List Row) : Prop where
  nonempty : rows ≠ []
  lives : ∃ r ∈ rows, 12 ≤ r.age
  initDeficit : ∀ r, rows.head? = some r → ∃ p e, r.pressure = some p ∧ r.poci = some e ∧ 1 < e - p
  pressures : ∀ r ∈ rows, ∃ p e, r.pressure = some p ∧ r.poci = some e ∧ p < e
  size : ∀ r ∈ rows, ∃ x, r.rmax = some x ∧ 5 < x ∧ x < 500
  initSize : ∀ r, rows.head? = some r → ∃ x, r.rmax = some x ∧ x < 100
  inner : ∀ l, inner = some l → ∀ r ∈ rows,
    l.xMin < r.lon ∧ r.lon < l.xMax ∧ l.yMin < r.lat ∧ r.lat < l.yMax

end Tcrm.TrackGen
