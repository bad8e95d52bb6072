import Mathlib.Data.Rat.Floor
import Mathlib.Data.List.Sort
import Verif.Model.Geometry
/-!
Evaluation of tracks: Evaluate/trackDensity.py, genesisDensity.py, pressureDistribution.py, longitudeCrossing.py,
landfallRates.py, landfallIntensity.py and locationLandfallIntensity.py. Numbers are exact rationals; `none` stands for
what numpy gives for a division by zero (nan or inf).
-/
namespace Tcrm.Evaluate
open Tcrm.Geometry (Point lineLine isLeft inLand Status)

/-! ### numpy -/

/-- `np.arange(a, b, d)` for `d > 0` -/
def arange (a b d : ℚ) : List ℚ := (List.range ⌈(b - a) / d⌉.toNat).map fun (i : Nat) => a + i * d

/-- The half-open bins of `np.histogram`; the last one is closed. -/
def inBin (edges : List ℚ) (i : Nat) (v : ℚ) : Bool :=
  match edges[i]?, edges[i + 1]? with
  | some a, some b => decide (a ≤ v) && (decide (v < b) || (decide (i + 2 = edges.length) && decide (v = b)))
  | _, _ => false

/-- `np.histogram(vs, edges, density=False)[0]` for edges that do not decrease -/
def histogram (vs edges : List ℚ) : List Nat := (List.range (edges.length - 1)).map fun i => vs.countP (inBin edges i)

/-- `np.histogram(vs, edges, density=True)[0]`: counts divided by the widths and the total count. -/
def density (vs edges : List ℚ) : Option (List ℚ) :=
  let n := histogram vs edges
  if n.sum = 0 then none
  else some ((List.range (edges.length - 1)).map fun i =>
    (n.getD i 0 : ℚ) / (edges.getD (i + 1) 0 - edges.getD i 0) / (n.sum : ℚ))

/-- `np.histogram2d(x, y, [xe, ye], density=False)[0]` -/
def histogram2d (ps : List (ℚ × ℚ)) (xe ye : List ℚ) : List (List Nat) :=
  (List.range (xe.length - 1)).map fun i => (List.range (ye.length - 1)).map fun j =>
    ps.countP fun p => inBin xe i p.1 && inBin ye j p.2

/-- `np.mean` -/
def mean (vs : List ℚ) : Option ℚ := if vs = [] then none else some (vs.sum / vs.length)

/-- `np.sort` -/
def sort (vs : List ℚ) : List ℚ := vs.insertionSort (· ≤ ·)

/-- `np.median`: the middle value, or the mean of the two in the middle -/
def median (vs : List ℚ) : Option ℚ :=
  if vs = [] then none
  else
    let s := sort vs
    if s.length % 2 = 1 then s[s.length / 2]?
    else some ((s.getD (s.length / 2 - 1) 0 + s.getD (s.length / 2) 0) / 2)

/-- `scipy.stats.scoreatpercentile(vs, per)` with its default, linear interpolation between neighbours -/
def percentile (vs : List ℚ) (per : ℚ) : Option ℚ :=
  if vs = [] then none
  else
    let s := sort vs
    let idx := per / 100 * (s.length - 1)
    let i := ⌊idx⌋.toNat
    if idx = i then s[i]?
    else some (s.getD i 0 * ((i + 1 : ℚ) - idx) + s.getD (i + 1) 0 * (idx - i))

/-- What is plotted of the values of all simulations in one cell, gate or bin -/
structure Summary where
  mean : Option ℚ
  median : Option ℚ
  upper : Option ℚ
  lower : Option ℚ
  deriving DecidableEq, Repr

/-- Evaluate/trackDensity.py L111-120 (`calculateMeans`), genesisDensity.py L206-216; the mean and the percentiles are
those of landfallRates.py L146-160, longitudeCrossing.py L159-172 and pressureDistribution.py L203-205 too. -/
def summarise (vs : List ℚ) : Summary := ⟨mean vs, median vs, percentile vs 95, percentile vs 5⟩

/-! ### Tracks -/

/-- The attributes of one record of a track that are read here -/
structure Obs where
  lon : ℚ
  lat : ℚ
  pressure : ℚ
  year : ℤ := 0
  deriving DecidableEq, Repr

abbrev Track := List Obs

structure Limit where
  xMin : ℚ
  xMax : ℚ
  yMin : ℚ
  yMax : ℚ

/-- `lon_range`, `lat_range`: Evaluate/trackDensity.py L63-68, genesisDensity.py L95-100, pressureDistribution.py
L89-94, longitudeCrossing.py L65-70 -/
def gridRange (lo hi step : ℚ) : List ℚ := arange lo (hi + 0.1) step

/-- Evaluate/trackDensity.py L89-109 (`TrackDensity.calculate`) -/
def trackDensity (lons lats : List ℚ) (tracks : List Track) : List (List Nat) :=
  histogram2d (tracks.flatMap fun t => t.map fun o => (o.lon, o.lat)) lons lats

inductive Err
  | indexError
  | valueError
  deriving DecidableEq, Repr

/-- `t.Longitude[0], t.Latitude[0]` for every track -/
def firstPoints : List Track → Except Err (List (ℚ × ℚ))
  | [] => .ok []
  | [] :: _ => .error .indexError
  | (o :: _) :: ts =>
    match firstPoints ts with
    | .error e => .error e
    | .ok ps => .ok ((o.lon, o.lat) :: ps)

/-- Evaluate/genesisDensity.py L117-135 (`GenesisDensity.calculate`) -/
def genesisDensity (lons lats : List ℚ) (tracks : List Track) : Except Err (List (List Nat)) :=
  match firstPoints tracks with
  | .error e => .error e
  | .ok ps => .ok (histogram2d ps lons lats)

/-- Evaluate/trackDensity.py L147-152: first and last year; `min` of a track without records raises. -/
def yearRange : List Track → ℤ × ℤ → Except Err (ℤ × ℤ)
  | [], r => .ok r
  | [] :: _, _ => .error .valueError
  | (o :: os) :: ts, r =>
    yearRange ts (min r.1 (os.foldl (fun a x => min a x.year) o.year), max r.2 (os.foldl (fun a x => max a x.year) o.year))

/-- Evaluate/trackDensity.py L147-154 (`historic`): counts divided by `numYears = endYr - startYr` -/
def historicRate (lons lats : List ℚ) (tracks : List Track) : Except Err (List (List (Option ℚ))) :=
  match yearRange tracks (9999, 0) with
  | .error e => .error e
  | .ok r =>
    let numYears : ℚ := (r.2 - r.1 : ℤ)
    .ok ((trackDensity lons lats tracks).map (·.map fun (c : Nat) => if numYears = 0 then none else some (c / numYears)))

/-- Evaluate/trackDensity.py L208-212 (`synthetic`, one process): counts divided by the years of a simulation -/
def syntheticRate (lons lats : List ℚ) (years : ℚ) (tracks : List Track) : List (List (Option ℚ)) :=
  (trackDensity lons lats tracks).map (·.map fun (c : Nat) => if years = 0 then none else some (c / years))

/-! ### Pressure -/

/-- `sys.maxsize` -/
def maxsize : ℚ := 9223372036854775807

/-- Evaluate/pressureDistribution.py L135-143: the values of one cell -/
def cellValues (xmin xmax ymin ymax : ℚ) (tracks : List Track) : List ℚ :=
  tracks.flatMap fun t =>
    let ii := t.filter fun o => decide (ymin ≤ o.lat) && decide (o.lat < ymax) && (decide (xmin ≤ o.lon) && decide (o.lon < xmax))
    (ii.map (·.pressure)).filter (fun p => decide (p < maxsize)) |>.filter (fun p => decide (p > 0))

/-- `np.min` of values that are present -/
def minimum : List ℚ → Option ℚ
  | [] => none
  | v :: vs => some (vs.foldl min v)

/-- `np.max` -/
def maximum : List ℚ → Option ℚ
  | [] => none
  | v :: vs => some (vs.foldl max v)

/-- `ma.masked_equal(x, 0)` -/
def masked0 (x : ℚ) : Option ℚ := if x = 0 then none else some x

/-- Statistics of a cell: mean, minimum, maximum, median; `none` is masked. -/
structure CellStats where
  mean : Option ℚ
  min : Option ℚ
  max : Option ℚ
  med : Option ℚ
  deriving DecidableEq, Repr

/-- Evaluate/pressureDistribution.py L133-154 for one cell: zeros are replaced where there is data, and what is still
zero is masked. -/
def cellStats (xmin xmax ymin ymax : ℚ) (tracks : List Track) : CellStats :=
  let v := cellValues xmin xmax ymin ymax tracks
  ⟨masked0 ((mean v).getD 0), masked0 ((minimum v).getD 0), masked0 ((maximum v).getD 0), masked0 ((median v).getD 0)⟩

/-- Evaluate/pressureDistribution.py L104-114 and L116-155 (`PressureDistribution.calculate`) -/
def pressureGrid (lons lats : List ℚ) (dx dy : ℚ) (tracks : List Track) : List (List CellStats) :=
  (List.range (lons.length - 1)).map fun k => (List.range (lats.length - 1)).map fun l =>
    cellStats (lons.getD k 0) (lons.getD k 0 + dx) (lats.getD l 0) (lats.getD l 0 + dy) tracks

/-- Utilities/track.py L115-136 (`Track.inRegion`): the first position only -/
def inRegion (g : Limit) : Track → Except Err Bool
  | [] => .error .indexError
  | o :: _ => .ok (decide (g.xMin ≤ o.lon) && decide (o.lon ≤ g.xMax) && decide (g.yMin ≤ o.lat) && decide (o.lat ≤ g.yMax))

/-- Evaluate/pressureDistribution.py L166-170: the lowest pressure of every track that starts in the region, zero for the
others -/
def minPressures (g : Limit) : List Track → Except Err (List ℚ)
  | [] => .ok []
  | t :: ts =>
    match inRegion g t with
    | .error e => .error e
    | .ok b =>
      match minPressures g ts with
      | .error e => .error e
      | .ok vs => .ok ((if b then (minimum (t.map (·.pressure))).getD 0 else 0) :: vs)

/-- Evaluate/pressureDistribution.py L172, L255 -/
def pressureBins : List ℚ := arange 850 1020 5

/-- Evaluate/pressureDistribution.py L157-174 (`calcMinPressure`) -/
def calcMinPressure (g : Limit) (tracks : List Track) : Except Err (Option (List ℚ) × List ℚ) :=
  match minPressures g tracks with
  | .error e => .error e
  | .ok vs => .ok (density vs pressureBins, vs)

/-! ### Crossings of lines of longitude -/

/-- Consecutive records -/
def segments : Track → List (Obs × Obs)
  | a :: b :: rest => (a, b) :: segments (b :: rest)
  | _ => []

def pt (o : Obs) : Point ℚ := ⟨o.lon, o.lat⟩

/-- Direction in which a segment is said to cross -/
inductive Dir
  | we
  | ew
  | neither
  deriving DecidableEq, Repr

/-- Evaluate/longitudeCrossing.py L117-118, L125-139: the latitude and direction of the crossing of the gate at `gLon`
from `latMax` to `latMin`, if there is one -/
def crossing (gLon latMax latMin : ℚ) (s : Obs × Obs) : Option (ℚ × Dir) :=
  let gStart : Point ℚ := ⟨gLon, latMax⟩
  let gEnd : Point ℚ := ⟨gLon, latMin⟩
  let r := lineLine (pt s.1) (pt s.2) gStart gEnd
  if r.status = .intersection then
    match r.points with
    | p :: _ =>
      let startSide := isLeft gStart gEnd (pt s.1)
      let endSide := isLeft gStart gEnd (pt s.2)
      if (startSide < 0 ∧ endSide ≥ 0) ∨ (startSide ≤ 0 ∧ endSide > 0) then some (p.y, .we)
      else if (startSide > 0 ∧ endSide ≤ 0) ∨ (startSide ≥ 0 ∧ endSide < 0) then some (p.y, .ew)
      else some (p.y, .neither)
    | [] => none
  else none

/-- Evaluate/longitudeCrossing.py L123-143: all crossings of a gate -/
def crossings (gLon latMax latMin : ℚ) (tracks : List Track) : List (ℚ × Dir) :=
  tracks.flatMap fun t => (segments t).filterMap (crossing gLon latMax latMin)

/-- Evaluate/longitudeCrossing.py L146-154: one column of a histogram, zeros without crossings -/
def gateColumn (lats gateLats : List ℚ) : Option (List ℚ) :=
  if lats = [] then some (List.replicate (gateLats.length - 1) 0) else density lats gateLats

/-- Evaluate/longitudeCrossing.py L102-157 (`findCrossings`) for one line of longitude: the columns of `h`, `ewh` and
`weh` -/
def findCrossings (gLon : ℚ) (gateLats : List ℚ) (tracks : List Track) :
    Option (List ℚ) × Option (List ℚ) × Option (List ℚ) :=
  let c := crossings gLon ((maximum gateLats).getD 0) ((minimum gateLats).getD 0) tracks
  (gateColumn (c.map (·.1)) gateLats,
   gateColumn ((c.filter fun x => decide (x.2 = .ew)).map (·.1)) gateLats,
   gateColumn ((c.filter fun x => decide (x.2 = .we)).map (·.1)) gateLats)

/-! ### Landfall by gates -/

/-- Evaluate/landfallRates.py L110-115, L120-125: `j` for `j in range(1, len(gates) - 1)` with `gates[j-1]`, `gates[j]`
crossed -/
def gatesCrossed (gates : List (Point ℚ)) (s e : Point ℚ) : List Nat :=
  (List.range (gates.length - 2)).filterMap fun k =>
    match gates[k]?, gates[k + 1]? with
    | some a, some b => if (lineLine s e a b).status = .intersection then some (k + 1) else none
    | _, _ => none

/-- Evaluate/landfallRates.py L80-81: the closed polygon -/
def coast (gates : List (Point ℚ)) : List (Point ℚ) := gates ++ gates.head?.toList

/-- Evaluate/landfallRates.py L95-125: numbers of the gates crossed on landfall and on leaving the land -/
def landfalls (gates : List (Point ℚ)) (tracks : List Track) : List Nat × List Nat :=
  let legs := tracks.flatMap segments
  (legs.flatMap fun s => if !(inLand (pt s.1) (coast gates)) && inLand (pt s.2) (coast gates) then
      gatesCrossed gates (pt s.1) (pt s.2) else [],
   legs.flatMap fun s => if !(!(inLand (pt s.1) (coast gates)) && inLand (pt s.2) (coast gates)) &&
        (inLand (pt s.1) (coast gates) && !(inLand (pt s.2) (coast gates))) then
      gatesCrossed gates (pt s.1) (pt s.2) else [])

/-- Evaluate/landfallRates.py L85-130 (`processTracks`) -/
def processTracks (gates : List (Point ℚ)) (tracks : List Track) : Option (List ℚ) × Option (List ℚ) :=
  let bins := (List.range gates.length).map fun (i : Nat) => (i : ℚ)
  (density ((landfalls gates tracks).1.map fun (j : Nat) => (j : ℚ)) bins,
   density ((landfalls gates tracks).2.map fun (j : Nat) => (j : ℚ)) bins)

/-! ### Landfall intensity -/

/-- Evaluate/landfallIntensity.py L101-103 and locationLandfallIntensity.py L101-103: `pd.cut` with intervals closed on
the right; `none` outside them. -/
def category (p : ℚ) : Option Nat :=
  if 0 < p ∧ p ≤ 930 then some 5
  else if 930 < p ∧ p ≤ 955 then some 4
  else if 955 < p ∧ p ≤ 970 then some 3
  else if 970 < p ∧ p ≤ 985 then some 2
  else if 985 < p ∧ p ≤ 990 then some 1
  else if 990 < p ∧ p ≤ 1020 then some 0
  else none

/-- A gate: a directed line -/
structure Gate where
  a : Point ℚ
  b : Point ℚ

/-- `crosses` of shapely for two line segments: they are not parallel and meet inside of both of them. -/
def crosses (g : Gate) (s : Obs × Obs) : Bool :=
  let u_b := (g.b.y - g.a.y) * (s.2.lon - s.1.lon) - (g.b.x - g.a.x) * (s.2.lat - s.1.lat)
  let ua_t := (g.b.x - g.a.x) * (s.1.lat - g.a.y) - (g.b.y - g.a.y) * (s.1.lon - g.a.x)
  let ub_t := (s.2.lon - s.1.lon) * (s.1.lat - g.a.y) - (s.2.lat - s.1.lat) * (s.1.lon - g.a.x)
  decide (u_b ≠ 0) && (decide (0 < ua_t / u_b) && decide (ua_t / u_b < 1)) && (decide (0 < ub_t / u_b) && decide (ub_t / u_b < 1))

/-- Evaluate/landfallIntensity.py L108-122 (`isLeft`) -/
def leftOf (g : Gate) (o : Obs) : Bool :=
  decide ((g.b.x - g.a.x) * (o.lat - g.a.y) - (g.b.y - g.a.y) * (o.lon - g.a.x) > 0)

/-- Evaluate/landfallIntensity.py L80-106 (`readTracks`) and L124-143 (`isLandfall`): the segments, with the attributes
of their first record, that cross the gate from its left -/
def isLandfall (g : Gate) (tracks : List Track) : List (Obs × Obs) :=
  (tracks.flatMap segments).filter (crosses g) |>.filter fun s => leftOf g s.1

/-- The attributes of a gate, Evaluate/landfallIntensity.py L59-67 -/
structure GateRow where
  count : Nat
  meanIntensity : Option ℚ
  minIntensity : Option ℚ
  cat1 : Nat
  cat2 : Nat
  cat3 : Nat
  cat4 : Nat
  cat5 : Nat
  deriving DecidableEq, Repr

/-- `np.histogram(l['category'].values, bins=[0,1,2,3,4,5,6])[0]`, Evaluate/landfallIntensity.py L166: missing categories
fall into no bin. -/
def cathist (l : List (Obs × Obs)) : List Nat :=
  histogram (l.filterMap fun s => (category s.1.pressure).map fun (c : Nat) => (c : ℚ)) [0, 1, 2, 3, 4, 5, 6]

/-- Evaluate/landfallIntensity.py L148-182 (`countCrossings`) for one gate -/
def countCrossings (g : Gate) (tracks : List Track) : GateRow :=
  let l := isLandfall g tracks
  if l.length > 0 then
    let h := cathist l
    ⟨l.length, mean (l.map (·.1.pressure)), minimum (l.map (·.1.pressure)), h.getD 0 0, h.getD 1 0, h.getD 2 0, h.getD 3 0, h.getD 4 0⟩
  else ⟨0, none, none, 0, 0, 0, 0, 0⟩

/-- Evaluate/locationLandfallIntensity.py L124-130 (`enters`): a shape of one coordinate has no `coords[1]`. -/
def enters (within : Point ℚ → Bool) (coords : List (Point ℚ)) : Except Err Bool :=
  match coords with
  | s :: _ :: _ => .ok (!(within s))
  | _ => .error .indexError

/-- Evaluate/locationLandfallIntensity.py L143-149: `enters` is handed the first point of every segment that crosses the
shape. `crossing` and `within` stand for the predicates of shapely. -/
def locationLandfalls (crossing : Obs × Obs → Bool) (within : Point ℚ → Bool) : List (Obs × Obs) → Except Err (List (Obs × Obs))
  | [] => .ok []
  | s :: ss =>
    if crossing s then
      match enters within [pt s.1] with
      | .error e => .error e
      | .ok b =>
        match locationLandfalls crossing within ss with
        | .error e => .error e
        | .ok r => .ok (if b then s :: r else r)
    else locationLandfalls crossing within ss

end Tcrm.Evaluate
