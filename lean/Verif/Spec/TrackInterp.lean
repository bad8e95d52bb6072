import Verif.Model.TrackInterp
import Verif.Spec.Akima
/-!
Specification vocabulary for interpolated tracks.
-/
namespace Tcrm.TrackInterp

/-- Seconds since a fixed day. -/
def seconds (d : Stamp) : ℚ := 86400 * d.ordinal + 3600 * d.hour + 60 * d.minute + d.second

/-- `x` lists the hours from the first record to each record. -/
def HoursSinceFirst (obs : List Obs) (x : List ℚ) : Prop :=
  ∃ o rest, obs = o :: rest ∧ x = obs.map fun p => (seconds p.date - seconds o.date) / 3600

/-- At `t`, `v` is on the straight line between the two neighbouring points of the table `x`, `y`. -/
def OnLine (x y : List ℚ) (t v : ℚ) : Prop :=
  ∃ (k : ℕ) (a b p q : ℚ), x[k]? = some a ∧ x[k + 1]? = some b ∧ y[k]? = some p ∧ y[k + 1]? = some q ∧
    a ≤ t ∧ t ≤ b ∧ (v - p) * (b - a) = (q - p) * (t - a)

/-- The times and the column `col` of the records that have a pressure. -/
def Known (x : List ℚ) (obs : List Obs) (col : Obs → ℚ) (vt vv : List ℚ) : Prop :=
  (vt.zip vv) = ((x.zip obs).filter fun p => decide (p.2.pressure < 9223372036854775807)).map (fun p => (p.1, col p.2)) ∧
    vt.length = vv.length

/-- A pressure that a cyclone can have (hPa). -/
def Plausible (p : ℚ) : Prop := 700 ≤ p ∧ p ≤ 10000000

/-- The methods of interpolating positions return one position for each new time. -/
def Kind.Full : Kind → Prop
  | .spline f => ∀ x y ts, (f x y ts).length = ts.length
  | _ => True

end Tcrm.TrackInterp
