import Verif.Model.Units
import Mathlib.Analysis.Real.Sqrt
/-!
The closest approach of tracks to locations, stored in the table of tracks of the hazard database.  Positions are pairs of
longitude and latitude, over the exact reals.
-/
namespace Tcrm.Closest

/-- `Point.distance`: distance of two points in the plane of longitude and latitude -/
noncomputable def planar (p q : ℝ × ℝ) : ℝ := √((p.1 - q.1) ^ 2 + (p.2 - q.2) ^ 2)

/-- Distance of a point from a segment as in GEOS (`Distance::pointToSegment`): to the first end if the segment is a
point, else to the foot of the perpendicular, or to an end if the foot is beyond it. -/
noncomputable def toSegment (p a b : ℝ × ℝ) : ℝ :=
  if a = b then planar p a
  else
    let r := ((p.1 - a.1) * (b.1 - a.1) + (p.2 - a.2) * (b.2 - a.2)) / ((b.1 - a.1) ^ 2 + (b.2 - a.2) ^ 2)
    if r ≤ 0 then planar p a
    else if 1 ≤ r then planar p b
    else |(a.2 - p.2) * (b.1 - a.1) - (a.1 - p.1) * (b.2 - a.2)| / ((b.1 - a.1) ^ 2 + (b.2 - a.2) ^ 2) *
      √((b.1 - a.1) ^ 2 + (b.2 - a.2) ^ 2)

/-- `LineString.distance`: the smallest distance from the segments -/
noncomputable def toLine (p : ℝ × ℝ) : List (ℝ × ℝ) → ℝ
  | a :: b :: c :: rest => min (toSegment p a b) (toLine p (b :: c :: rest))
  | [a, b] => toSegment p a b
  | _ => 0

/-- Utilities/track.py L138-160 (`minimumDistance`); the caller leaves out tracks without positions -/
noncomputable def minimumDistance (coords points : List (ℝ × ℝ)) : List ℝ :=
  (if coords.length = 1 then
    match coords with
    | [] => []
    | a :: _ => points.map (planar a)
  else points.map fun p => toLine p coords).map fun d => Units.convert d "deg" "km"

/-- A location: its number, longitude and latitude -/
structure Location where
  id : ℕ
  lon : ℝ
  lat : ℝ

/-- A track: its identifier and positions -/
structure Track where
  id : ℕ × ℕ
  coords : List (ℝ × ℝ)

/-- A row of the table of tracks -/
structure Row where
  loc : ℕ
  event : ℕ × ℕ
  dist : ℝ

/-- database/__init__.py L664-691 (`processTrack`); the identifier is written as text there, see C84 -/
noncomputable def processTrack (tracks : List Track) (locations : List Location) : List Row :=
  let points := locations.map fun l => (l.lon, l.lat)
  tracks.flatMap fun t =>
    if t.coords.length = 0 then []
    else (locations.zip (minimumDistance t.coords points)).map fun x => ⟨x.1.id, t.id, x.2⟩

end Tcrm.Closest
