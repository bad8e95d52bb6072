import Verif.Model.Akima
import Mathlib.Data.Rat.Floor
/-!
Interpolation of tracks to a new time step: Evaluate/interpolateTracks.py. Numbers are exact rationals (no rounding,
in particular not that to single precision of the stored columns). The `Datetime`, `Speed` and `Bearing` columns exist
(for a track without them the tests of L70 and L102 raise, as `Track.__getattr__` does not raise AttributeError).
-/
namespace Tcrm.TrackInterp

inductive Err where
  | valueError
  | indexError
  | zeroDivision
  deriving DecidableEq

/-- `sys.maxsize`: the mark of a missing value -/
def maxsize : ℚ := 9223372036854775807

/-- A date and time: day number, hour, minute and second. -/
structure Stamp where
  ordinal : ℕ
  hour : ℕ
  minute : ℕ
  second : ℕ
  deriving DecidableEq

/-- One record of the track to be interpolated. -/
structure Obs where
  date : Stamp
  lon : ℚ
  lat : ℚ
  speed : ℚ
  bearing : ℚ
  pressure : ℚ
  wind : ℚ
  rmax : ℚ
  penv : ℚ
  deriving DecidableEq

/-- One record of the interpolated track; `time` is `TimeElapsed`. The calendar columns follow from `time`. -/
structure Rec where
  time : ℚ
  lon : ℚ
  lat : ℚ
  speed : ℚ
  bearing : ℚ
  pressure : ℚ
  wind : ℚ
  rmax : ℚ
  penv : ℚ
  deriving DecidableEq

/-- Evaluate/interpolateTracks.py L79-80 -/
def dayTime (d : Stamp) : ℚ := d.ordinal + (d.hour + d.minute / 60) / 24

/-- Evaluate/interpolateTracks.py L94: hours after the first record -/
def elapsed (obs : List Obs) : List ℚ :=
  match obs with
  | [] => []
  | o :: _ => obs.map fun p => 24 * (dayTime p.date - dayTime o.date)

/-- Evaluate/interpolateTracks.py L96-97: `np.arange(0, T + .01, delta)` (`⌈(T + .01) / delta⌉` values), then the
last one is replaced; for an empty array this is an IndexError. -/
def newTimes (T δ : ℚ) : Except Err (List ℚ) :=
  if δ = 0 then .error .zeroDivision
  else if ⌈(T + 1 / 100) / δ⌉ ≤ 0 then .error .indexError
  else .ok (((List.range (⌈(T + 1 / 100) / δ⌉.toNat - 1)).map fun k : ℕ => (k : ℚ) * δ) ++ [T])

/-- Contract of `scipy.interpolate.interp1d(x, y, kind='linear')` at `t`, for increasing `x` with at least two entries:
ValueError outside the knots; otherwise the interval is that below the first knot not less than `t`. (The sorting of
`x` is not modelled.) -/
def lin (x y : List ℚ) (t : ℚ) : Except Err ℚ :=
  if t < x.getD 0 0 ∨ x.getD (x.length - 1) 0 < t then .error .valueError
  else
    let hi := min (max (x.countP fun a => decide (a < t)) 1) (x.length - 1)
    .ok (y.getD (hi - 1) 0 + (y.getD hi 0 - y.getD (hi - 1) 0) / (x.getD hi 0 - x.getD (hi - 1) 0) * (t - x.getD (hi - 1) 0))

/-- `interp1d(x, y)(ts)` -/
def linAll (x y : List ℚ) : List ℚ → Except Err (List ℚ)
  | [] => .ok []
  | t :: ts =>
    match lin x y t with
    | .error e => .error e
    | .ok v =>
      match linAll x y ts with
      | .error e => .error e
      | .ok vs => .ok (v :: vs)

/-- How longitudes and latitudes are interpolated: `interpolation_type`; the default (scipy splines) is a parameter. -/
inductive Kind where
  | linear
  | akima
  | spline (f : List ℚ → List ℚ → List ℚ → List ℚ)

/-- Evaluate/interpolateTracks.py L115-118 and L142-162: positions at the new times. -/
def positions (kind : Kind) (x y ts : List ℚ) : Except Err (List ℚ) :=
  if x.length ≤ 3 then linAll x y ts
  else
    match kind with
    | .linear => linAll x y ts
    | .akima =>
      match Akima.interpolate x y ts with
      | .error _ => .error .valueError
      | .ok zs => .ok zs
    | .spline f => .ok (f x y ts)

/-- Evaluate/interpolateTracks.py L110: the records with a pressure, as pairs of time and value of the column `col`. -/
def validOf (x : List ℚ) (obs : List Obs) (col : Obs → ℚ) : List (ℚ × ℚ) :=
  ((x.zip obs).filter fun p => decide (p.2.pressure < maxsize)).map fun p => (p.1, col p.2)

/-- Evaluate/interpolateTracks.py L164-191 for one column: at least two valid records `v`, the first and last of them
`a` and `b`. The slice `first:last` is filled by interpolation and position `last` repeats its final value. -/
def between (v : List (ℚ × ℚ)) (a b : ℚ × ℚ) (ts : List ℚ) : Except Err (List ℚ) :=
  match ts.findIdx? (fun t => decide (a.1 ≤ t)) with
  | none => .error .indexError
  | some first =>
    match ((List.range ts.length).filter fun i => decide (ts.getD i 0 ≤ b.1)).getLast? with
    | none => .error .indexError
    | some last =>
      if first = last then .ok ((List.range ts.length).map fun i => if i = first then a.2 else 0)
      else
        match linAll (v.map (·.1)) (v.map (·.2)) ((ts.take last).drop first) with
        | .error e => .error e
        | .ok vs =>
          match vs.getLast? with
          | none => .error .indexError
          | some w => .ok ((List.range ts.length).map fun i =>
              if i = last then w else if first ≤ i ∧ i < last then vs.getD (i - first) 0 else 0)

/-- Evaluate/interpolateTracks.py L120-136 and L164-198 for one of the columns central pressure and wind speed. -/
def intensity (x : List ℚ) (obs : List Obs) (col : Obs → ℚ) (ts : List ℚ) : Except Err (List ℚ) :=
  match validOf x obs col with
  | [] => .ok (ts.map fun _ => 0)
  | [p] => .ok (ts.map fun _ => p.2)
  | p :: q :: rest =>
    if obs.length ≤ 3 then linAll x (obs.map col) ts
    else between (p :: q :: rest) p ((q :: rest).getLast (by simp)) ts

/-- Evaluate/interpolateTracks.py L222-223 -/
def maskPressure (p : ℚ) : ℚ :=
  let p := if p > 10000000 then maxsize else p
  if p < 700 then maxsize else p

/-- Bearing and distance of the legs between consecutive positions, Utilities/maputils.py L53-97 (`latLon2Azi`): the
function `leg` of the two ends is a parameter. -/
def legs (leg : ℚ × ℚ → ℚ × ℚ → ℚ × ℚ) : List (ℚ × ℚ) → List (ℚ × ℚ)
  | a :: b :: rest => leg a b :: legs leg (b :: rest)
  | _ => []

/-- Evaluate/interpolateTracks.py L203-215: bearing and speed of each new record. -/
def motion (leg : ℚ × ℚ → ℚ × ℚ → ℚ × ℚ) (δ : ℚ) (obs : List Obs) (pts : List (ℚ × ℚ)) : List (ℚ × ℚ) :=
  match (legs leg pts).getLast? with
  | some l => (legs leg pts ++ [l]).map fun p => (p.1, p.2 / δ)
  | none => pts.map fun _ => (obs.getLast?.elim 0 (·.bearing), obs.getLast?.elim 0 (·.speed))

/-- Evaluate/interpolateTracks.py L225-242: the columns of the new track. -/
def assemble : List ℚ → List ℚ → List ℚ → List (ℚ × ℚ) → List ℚ → List ℚ → List ℚ → List ℚ → List Rec
  | t :: ts, x :: xs, y :: ys, m :: ms, p :: ps, w :: ws, r :: rs, e :: es =>
    ⟨t, x, y, m.2, m.1, p, w, r, e⟩ :: assemble ts xs ys ms ps ws rs es
  | _, _, _, _, _, _, _, _ => []

/-- Evaluate/interpolateTracks.py L101-244: the interpolation of a track with records at times `x` to the times `ts`. -/
def interpolateOn (leg : ℚ × ℚ → ℚ × ℚ → ℚ × ℚ) (kind : Kind) (x : List ℚ) (obs : List Obs) (δ : ℚ) (ts : List ℚ) :
    Except Err (List Rec) :=
  match positions kind x (obs.map (·.lon)) ts with
  | .error e => .error e
  | .ok xs =>
  match positions kind x (obs.map (·.lat)) ts with
  | .error e => .error e
  | .ok ys =>
  match intensity x obs (·.pressure) ts with
  | .error e => .error e
  | .ok ps =>
  match intensity x obs (·.wind) ts with
  | .error e => .error e
  | .ok ws =>
  match linAll x (obs.map (·.penv)) ts with
  | .error e => .error e
  | .ok es =>
  match linAll x (obs.map (·.rmax)) ts with
  | .error e => .error e
  | .ok rs => .ok (assemble ts xs ys (motion leg δ obs (xs.zip ys)) (ps.map maskPressure) ws rs es)

/-- Evaluate/interpolateTracks.py L96-244: the interpolation of a track with records at times `x`. -/
def interpolateAt (leg : ℚ × ℚ → ℚ × ℚ → ℚ × ℚ) (kind : Kind) (x : List ℚ) (obs : List Obs) (δ : ℚ) :
    Except Err (List Rec) :=
  match newTimes (x.getLast?.getD 0) δ with
  | .error e => .error e
  | .ok ts => interpolateOn leg kind x obs δ ts

/-- Evaluate/interpolateTracks.py L53-244 (`interpolate`) -/
def interpolate (leg : ℚ × ℚ → ℚ × ℚ → ℚ × ℚ) (kind : Kind) (obs : List Obs) (δ : ℚ) : Except Err (List Rec) :=
  interpolateAt leg kind (elapsed obs) obs δ

/-- The outcome of `parseTracks` for one track: unaltered or interpolated. -/
inductive Out where
  | same (obs : List Obs)
  | new (recs : List Rec)
  deriving DecidableEq

/-- Evaluate/interpolateTracks.py L316-321: the loop over the tracks. -/
def parseAll (leg : ℚ × ℚ → ℚ × ℚ → ℚ × ℚ) (kind : Kind) (δ : ℚ) : List (List Obs) → Except Err (List Out)
  | [] => .ok []
  | obs :: tracks =>
    if obs.length = 1 then
      match parseAll leg kind δ tracks with
      | .error e => .error e
      | .ok outs => .ok (.same obs :: outs)
    else
      match interpolate leg kind obs δ with
      | .error e => .error e
      | .ok recs =>
        match parseAll leg kind δ tracks with
        | .error e => .error e
        | .ok outs => .ok (.new recs :: outs)

/-- Evaluate/interpolateTracks.py L297-328 (`parseTracks`) on the process with number `rank`, without the file of the
results. -/
def parseTracks (leg : ℚ × ℚ → ℚ × ℚ → ℚ × ℚ) (kind : Kind) (rank : ℕ) (tracks : List (List Obs)) (δ : ℚ) :
    Except Err (List Out) :=
  if δ < 0 then .error .valueError
  else if rank ≠ 0 then .ok []
  else parseAll leg kind δ tracks

end Tcrm.TrackInterp
