import Mathlib.Data.Rat.Floor
import Mathlib.Algebra.Order.Field.Basic
/-!
Tracks as features of shape files (Utilities/tracks2shp.py; Utilities/shptools.py L393-534 is the same
without categories).  The writing of the files (pyshp) is not modelled.
-/
namespace Tcrm.Shapes

/-- One observation of a track; longitudes between 0 and 360. -/
structure Fix where
  lon : ℚ
  lat : ℚ
  pressure : ℚ
  deriving DecidableEq

abbrev Pt := ℚ × ℚ

def Fix.pt (f : Fix) : Pt := (f.lon, f.lat)

/-- Utilities/tracks2shp.py L143-155 (`add_category`) -/
def category (p : ℚ) : ℕ :=
  if p < 930 then 5 else if p < 955 then 4 else if p < 970 then 3 else if p < 985 then 2
  else if p < 999 then 1 else 0

/-- Utilities/tracks2shp.py L178-184 (`tracks2point`): points with their records. -/
def points (tracks : List (List Fix)) : List (Pt × Fix) := tracks.flatMap fun t => t.map fun f => (f.pt, f)

/-- Utilities/tracks2shp.py L273-319 (`tracks2line` for segments), one track: lines with their records. -/
def segments : List Fix → List (List Pt × Fix)
  | [] => []
  | [a] => [([a.pt, a.pt], a)]
  | a :: b :: l => ([a.pt, if b.lon - a.lon < -180 then a.pt else b.pt], a) :: segments (b :: l)

/-- `np.diff(track.Longitude)` -/
def dlon (t : List Fix) : List ℚ := (t.zip t.tail).map fun p => p.2.lon - p.1.lon

/-- Utilities/tracks2shp.py L229-250 (`tracks2line` with `dissolve`), one track: the parts of its line. -/
def dissolve (t : List Fix) : List (List Pt) :=
  match (dlon t).min? with
  | none => [t.map Fix.pt]
  | some m =>
    if m < -180 then
      [(t.take ((dlon t).idxOf m)).map Fix.pt, (t.drop ((dlon t).idxOf m + 1)).map Fix.pt]
    else [t.map Fix.pt]

end Tcrm.Shapes
