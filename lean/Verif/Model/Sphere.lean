import Mathlib.Analysis.SpecialFunctions.Complex.Arg
import Verif.Model.Boundary
import Verif.Model.Angles
import Verif.Model.Units
/-!
Positions on the sphere, Utilities/maputils.py, over the exact reals. Longitudes, latitudes and bearings are in
degrees where the code takes degrees, distances in kilometres.
-/
namespace Tcrm.Sphere
open Real
open Tcrm.Boundary (atan2)

/-- `math.radians`, `np.radians` -/
noncomputable def rad (x : ℝ) : ℝ := x * π / 180

/-- `math.degrees` -/
noncomputable def deg (x : ℝ) : ℝ := x * 180 / π

/-- `radius`, Utilities/maputils.py L112, L154, L191, L298 -/
noncomputable def radius : ℝ := 6367

/-- Utilities/maputils.py L99-124 (`bear2LatLon`): the new longitude and latitude. `math.asin` never sees a number
outside [-1, 1] in exact arithmetic, so its `ValueError` is not modelled. -/
noncomputable def bear2LatLon (bearing distance oLon oLat : ℝ) : ℝ × ℝ :=
  let oLon' := rad oLon
  let oLat' := rad oLat
  let bear := rad bearing
  let nLat := arcsin (sin oLat' * cos (distance / radius) + cos oLat' * sin (distance / radius) * cos bear)
  let aa := sin bear * sin (distance / radius) * cos oLat'
  let bb := cos (distance / radius) - sin oLat' * sin nLat
  let nLon := oLon' + atan2 aa bb
  (deg nLon, deg nLat)

/-- The positions of a track, TrackGenerator/TrackGenerator.py L958-961 (in `_singleTrack`): from the first position,
one step for every pair of a bearing and a distance. Here the bearings and distances are given in advance; in the code
they are drawn on the way (Model/TrackGen.lean). -/
noncomputable def positions : List (ℝ × ℝ) → ℝ → ℝ → List (ℝ × ℝ)
  | [], lon, lat => [(lon, lat)]
  | m :: ms, lon, lat =>
    (lon, lat) :: positions ms (bear2LatLon m.1 m.2 lon lat).1 (bear2LatLon m.1 m.2 lon lat).2

/-- Utilities/maputils.py L35-51 (`xy2r`), one element -/
noncomputable def xy2r (x y : ℝ) : ℝ := √(x ^ 2 + y ^ 2)

/-- Utilities/maputils.py L126-173 (`latLon2XY`), one pair of consecutive positions, with a scalar `azimuth` -/
noncomputable def latLon2XY (xr yr lat1 lon1 lat2 lon2 ieast azimuth : ℝ) : ℝ × ℝ :=
  let cosazi := cos (rad azimuth)
  let sinazi := sin (rad azimuth)
  let xntru := xr + radius * (rad lat2 - rad lat1)
  let yetru := yr + ieast * radius * (rad lon2 - rad lon1) * cos (rad lat2)
  (xntru * cosazi + yetru * sinazi, -xntru * sinazi + yetru * cosazi)

/-- Utilities/maputils.py L53-97 (`latLon2Azi`), one pair of consecutive positions: bearing (degrees; the rounding
to single precision of L95 is not modelled) and length -/
noncomputable def latLon2Azi (lat1 lon1 lat2 lon2 ieast azimuth : ℝ) : ℝ × ℝ :=
  let p := latLon2XY 0 0 lat1 lon1 lat2 lon2 ieast azimuth
  let angle := atan2 p.1 p.2
  (deg (Angles.theta2bearing angle), xy2r p.1 p.2)

/-- `np.diff` style traversal of L91 and L168-169: the legs between consecutive members of `(lat, lon)` pairs -/
noncomputable def azimuths (ieast azimuth : ℝ) : List (ℝ × ℝ) → List (ℝ × ℝ)
  | p :: q :: rest => latLon2Azi p.1 p.2 q.1 q.2 ieast azimuth :: azimuths ieast azimuth (q :: rest)
  | _ => []

/-- Utilities/maputils.py L175-200 (`distGC`) -/
noncomputable def distGC (lat0 lat1 lon0 lon1 : ℝ) : ℝ :=
  radius * arccos (sin (rad lat0) * sin (rad lat1) + cos (rad lat0) * cos (rad lat1) * cos (rad lon0 - rad lon1))

/-- Utilities/maputils.py L307-313, one point of the grid of `gridLatLonDist`, in kilometres -/
noncomputable def pointDist (cLon cLat lon lat : ℝ) : ℝ :=
  let dLon := rad lon - rad cLon
  let dLat := rad lat - rad cLat
  let a := sin (dLat / 2) ^ 2 + cos (rad cLat) * cos (rad lat) * sin (dLon / 2) ^ 2
  let c := 2 * atan2 (√|a|) (√(1 - a))
  radius * c

/-- Utilities/maputils.py L424-431, one point of the grid of `gridLatLonBear`, in radians -/
noncomputable def pointBear (cLon cLat lon lat : ℝ) : ℝ :=
  let dLon := rad lon - rad cLon
  let alpha := sin dLon * cos (rad lat)
  let beta := cos (rad cLat) * sin (rad lat) - sin (rad cLat) * cos (rad lat) * cos dLon
  atan2 alpha beta

/-- Utilities/maputils.py L298-317 (`gridLatLonDist`) with `units` left out: one row for every latitude -/
noncomputable def gridLatLonDist (cLon cLat : ℝ) (lons lats : List ℝ) : List (List ℝ) :=
  lats.map fun lat => lons.map fun lon => pointDist cLon cLat lon lat

/-- Utilities/maputils.py L417-433 (`gridLatLonBear`) -/
noncomputable def gridLatLonBear (cLon cLat : ℝ) (lons lats : List ℝ) : List (List ℝ) :=
  lats.map fun lat => lons.map fun lon => pointBear cLon cLat lon lat

/-- Utilities/maputils.py L671-685 (`coriolis`) -/
noncomputable def coriolis (lat : ℝ) : ℝ := 2 * (2 * π / 24 / 3600) * sin (rad lat)

/-- What numpy raises for arrays whose shapes do not fit together -/
inductive ShapeErr
  | broadcast
  deriving DecidableEq, Repr

/-- numpy's operation `op` between an array of `rows` and a column of two numbers (shape (2, 1)): a single row is
repeated, two rows are taken one by one, any other number of rows does not fit. -/
def withColumn (op : ℝ → ℝ → ℝ) (grid : List (List ℝ)) (c0 c1 : ℝ) : Except ShapeErr (List (List ℝ)) :=
  match grid with
  | [r] => .ok [r.map (op · c0), r.map (op · c1)]
  | [r0, r1] => .ok [r0.map (op · c0), r1.map (op · c1)]
  | _ => .error .broadcast

/-- numpy's product of an array and an array of two rows -/
def withRows (a : List (List ℝ)) (r0 r1 : List ℝ) : Except ShapeErr (List (List ℝ)) :=
  match a with
  | [x] => .ok [List.zipWith (· * ·) x r0, List.zipWith (· * ·) x r1]
  | [x0, x1] => .ok [List.zipWith (· * ·) x0 r0, List.zipWith (· * ·) x1 r1]
  | _ => .error .broadcast

/-- Utilities/maputils.py L633-669 (`dist2GC`). `latLon2Azi` (L664) is handed the longitudes as latitudes and the
latitudes as longitudes, and what it returns is a pair of arrays of one element each, the bearing in degrees and the
length: `bear_ - cyc_bear_` makes an array of shape (2, 1) of the pair. -/
noncomputable def dist2GC (cLon1 cLat1 cLon2 cLat2 : ℝ) (lons lats : List ℝ) (units : String) :
    Except ShapeErr (List (List ℝ)) :=
  let dist := (gridLatLonDist cLon1 cLat1 lons lats).map (·.map (Units.convert · "km" "rad"))
  let bear := gridLatLonBear cLon1 cLat1 lons lats
  let cyc := latLon2Azi cLon1 cLat1 cLon2 cLat2 1 0
  match withColumn (· - ·) bear cyc.1 cyc.2 with
  | .ok [b0, b1] =>
    match withRows (dist.map (·.map sin)) (b0.map sin) (b1.map sin) with
    | .ok g => .ok (g.map (·.map fun x => Units.convert (arcsin x) "rad" units))
    | .error e => .error e
  | .ok _ => .error .broadcast
  | .error e => .error e

end Tcrm.Sphere
