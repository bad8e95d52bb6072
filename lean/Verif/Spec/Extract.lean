import Verif.Model.Extract
/-!
Specification vocabulary for the choice of a cell's sample.
-/
namespace Tcrm.Extract
open Tcrm.Cells

/-- The window lies in the domain. -/
def Win.Inside (w : Win) (gl : Limit) : Prop :=
  gl.xMin ≤ w.w ∧ w.e ≤ gl.xMax ∧ gl.yMin ≤ w.s ∧ w.n ≤ gl.yMax

/-- The first window contains the second. -/
def Win.Contains (w v : Win) : Prop := w.w ≤ v.w ∧ v.e ≤ w.e ∧ w.s ≤ v.s ∧ v.n ≤ w.n

/-- The window covering the whole domain. -/
def wholeDomain (gl : Limit) : Win := ⟨gl.xMin, gl.xMax, gl.yMax, gl.yMin⟩

/-- An observation counts for a window and land/sea class: it is in the window (south and west
edges inclusive), of the class, and its value is neither missing nor above the maximum. -/
def Counts (missing : ℚ) (sel : ℚ → Bool) (w : Win) (o : Obs) : Prop :=
  w.w ≤ o.lon ∧ o.lon < w.e ∧ w.s ≤ o.lat ∧ o.lat < w.n ∧ sel o.flag = true ∧
    o.value ≠ missing ∧ o.value < 9223372036854775807

instance (missing : ℚ) (sel : ℚ → Bool) (w : Win) : DecidablePred (Counts missing sel w) :=
  fun _ => by unfold Counts; infer_instance

/-- The values of the observations that count. -/
def valuesIn (obs : List Obs) (missing : ℚ) (sel : ℚ → Bool) (w : Win) : List ℚ :=
  (obs.filter (Counts missing sel w)).map (·.value)

/-- A sample good enough for the statistics. -/
def Good (minSample : ℤ) (p : List ℚ) : Prop := minSample < p.length ∧ ∃ a ∈ p, ∃ b ∈ p, a ≠ b

/-- The box of cell `c` of a domain with `nx` columns: column `c % nx` from the west, row
`c / nx` from the north. -/
def cellBox (gl : Limit) (gs : Space) (nx c : ℕ) : Win :=
  { w := gl.xMin + (c % nx : ℕ) * gs.x
    e := gl.xMin + (c % nx : ℕ) * gs.x + gs.x
    n := gl.yMax - (c / nx : ℕ) * gs.y
    s := gl.yMax - (c / nx : ℕ) * gs.y - gs.y }

/-- A domain of `nx` by `ny` whole cells, with a positive search increment. -/
structure Divides (gl : Limit) (gs inc : Space) (nx ny : ℕ) : Prop where
  gx : 0 < gs.x
  gy : 0 < gs.y
  ix : 0 < inc.x
  iy : 0 < inc.y
  x : gl.xMax = gl.xMin + nx * gs.x
  y : gl.yMax = gl.yMin + ny * gs.y

/-- The result is a sample that meets the requirements for cell box `box` and class `sel`. -/
def Sufficient (obs : List Obs) (missing : ℚ) (sel : ℚ → Bool) (minSample : ℤ) (gl : Limit)
    (box : Win) (r : Res) : Prop :=
  ∃ w, r = .ok w (valuesIn obs missing sel w) ∧ w.Inside gl ∧ w.Contains box ∧
    Good minSample (valuesIn obs missing sel w)

end Tcrm.Extract
