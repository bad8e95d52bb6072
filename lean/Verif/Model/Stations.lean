import Verif.Model.Grid
import Verif.Model.Windfield
import Verif.Model.Balanced
/-!
Time series at stations: Utilities/timeseries.py, its use in wind/__init__.py, and the multipliers applied to
the series afterwards (Utilities/tsmultipliers.py). Coordinates are exact rationals, wind speeds and pressures
are elements of an ordered set with a zero (`K`). The cutting of texts to 16 characters and the rounding to
two decimals in the written files are not modelled.
-/
namespace Tcrm.Stations
open Tcrm.Grid (findIndex)

inductive Err where
  | valueError
  | indexError
  deriving DecidableEq

/-- Utilities/timeseries.py L67-73: a station (the data are kept apart here). -/
structure Station where
  id : List Char
  lon : ℚ
  lat : ℚ
  deriving DecidableEq

/-- What the wind field hands over at a time step, wind/__init__.py L304-308: time, speed, components,
pressure and the coordinates. -/
structure Layer (K : Type) where
  time : ℚ
  spd : List (List K)
  uu : List (List K)
  vv : List (List K)
  prs : List (List K)
  gridx : List ℚ
  gridy : List ℚ

/-- A record of the series, Utilities/timeseries.py L31-34 -/
structure Rec (K : Type) where
  id : List Char
  time : ℚ
  lon : ℚ
  lat : ℚ
  speed : K
  uu : K
  vv : K
  bearing : K
  pressure : K
  deriving DecidableEq

/-- `array[j, i]` -/
def at2 {K : Type} (a : List (List K)) (j i : ℕ) : Except Err K :=
  match a[j]? with
  | none => .error .indexError
  | some row => match row[i]? with
    | none => .error .indexError
    | some x => .ok x

/-- Utilities/timeseries.py L85-96 (`insideGrid`); `min` of an empty array raises ValueError. -/
def insideGrid (s : Station) (gridx gridy : List ℚ) : Except Err Bool :=
  match gridx, gridy with
  | x :: xs, y :: ys =>
    .ok (decide (s.lon ≥ xs.foldl min x) && decide (s.lon ≤ xs.foldl max x) &&
      decide (s.lat ≥ ys.foldl min y) && decide (s.lat ≤ ys.foldl max y))
  | _, _ => .error .valueError

/-- The index found by `find_index`, which raises ValueError for an empty axis. -/
def index (a : List ℚ) (v : ℚ) : Except Err ℕ :=
  match findIndex a v with
  | .error _ => .error .valueError
  | .ok i => .ok i

section
variable {K : Type} [LinearOrder K] [Zero K]

/-- Utilities/timeseries.py L176-201 (`sample`) and L226-227: the record of a station inside the grid. `dir`
is `mod(180 / pi * arctan2(-ux, -vy), 360)`. -/
def sample (dir : K → K → K) (s : Station) (l : Layer K) : Except Err (Rec K) :=
  match index l.gridx s.lon, index l.gridy s.lat with
  | .ok xx, .ok yy =>
    match at2 l.spd yy xx, at2 l.uu yy xx, at2 l.vv yy xx, at2 l.prs yy xx with
    | .ok ss, .ok ux, .ok vy, .ok pp => .ok ⟨s.id, l.time, s.lon, s.lat, ss, ux, vy, dir ux vy, pp⟩
    | _, _, _, _ => .error .indexError
  | _, _ => .error .valueError

/-- Utilities/timeseries.py L219-231 (`extract`) for one station: outside the grid zeros and the pressure of
the first grid point are recorded. -/
def extract1 (dir : K → K → K) (s : Station) (l : Layer K) : Except Err (Rec K) :=
  match insideGrid s l.gridx l.gridy with
  | .error e => .error e
  | .ok true => sample dir s l
  | .ok false =>
    match at2 l.prs 0 0 with
    | .error e => .error e
    | .ok p => .ok ⟨s.id, l.time, s.lon, s.lat, 0, 0, 0, 0, p⟩

/-- Utilities/timeseries.py L204-232 (`extract`): one record for every station. The stations are kept with
their data. -/
def extract (dir : K → K → K) (l : Layer K) : List (Station × List (Rec K)) →
    Except Err (List (Station × List (Rec K)))
  | [] => .ok []
  | (s, d) :: rest =>
    match extract1 dir s l with
    | .error e => .error e
    | .ok r => match extract dir l rest with
      | .error e => .error e
      | .ok rest' => .ok ((s, d ++ [r]) :: rest')

/-- The calls of the call-back for the time steps in order. -/
def extractAll (dir : K → K → K) : List (Layer K) → List (Station × List (Rec K)) →
    Except Err (List (Station × List (Rec K)))
  | [], st => .ok st
  | l :: ls, st => match extract dir l st with
    | .error e => .error e
    | .ok st' => extractAll dir ls st'

/-- `np.argmax(data['Speed'])`: the record with the first largest value. -/
def maxRec : Rec K → List (Rec K) → Rec K
  | r, [] => r
  | r, x :: l => maxRec (if x.speed > r.speed then x else r) l

/-- `np.argmin(data['Pressure'])` -/
def minRec : Rec K → List (Rec K) → Rec K
  | r, [] => r
  | r, x :: l => minRec (if x.pressure < r.pressure then x else r) l

/-- The files of the output directory: the series of a station identifier, and the two tables. -/
structure Files (K : Type) where
  series : List Char → Option (List (Rec K))
  maxima : Option (List (Rec K))
  minima : Option (List (Rec K))

/-- Utilities/timeseries.py L249-261: the loop of `shutdown`, with the tables collected so far. -/
def shutdownLoop : List (Station × List (Rec K)) → (List Char → Option (List (Rec K))) →
    List (Rec K) → List (Rec K) → (List Char → Option (List (Rec K))) × List (Rec K) × List (Rec K)
  | [], files, mx, mn => (files, mx, mn)
  | (s, d) :: rest, files, mx, mn =>
    if d.any (fun r => decide (r.speed > 0)) then
      match d with
      | [] => shutdownLoop rest files mx mn
      | r :: l =>
        shutdownLoop rest (fun id => if id = s.id then some (r :: l) else files id)
          (mx ++ [maxRec r l]) (mn ++ [minRec r l])
    else shutdownLoop rest files mx mn

/-- Utilities/timeseries.py L234-300 (`shutdown`) -/
def shutdown (st : List (Station × List (Rec K))) (f : Files K) : Files K :=
  let r := shutdownLoop st f.series [] []
  ⟨r.1, some r.2.1, some r.2.2⟩

end

/-- Utilities/timeseries.py L155-159: a station of a shape file. -/
def fromShape (id : List Char) (lon lat : ℚ) : Station := ⟨id, if lon < 0 then lon + 360 else lon, lat⟩

/-- Utilities/timeseries.py L163-173: a station of a csv file. -/
def fromCsv (id : List Char) (lon lat : ℚ) : Station := ⟨id, lon, lat⟩

/-! ### Use in the wind field calculation -/

/-- wind/__init__.py L304-308: the layer handed over at a time step of `regionalExtremes`; `lats`, `lons` are
the axes of the regional grid in hundredths of a degree. -/
noncomputable def layerOf (P : Windfield.Params) (gl : Windfield.Limits) (lats lons : List ℤ) (time : ℚ)
    (t : Windfield.TimeStep) : Layer ℝ :=
  let wy := Windfield.window P.domain t.lat gl.yMin gl.yMax P.margin P.resolution
  let wx := Windfield.window P.domain t.lon gl.xMin gl.xMax P.margin P.resolution
  let lim (x : ℚ) : Option ℚ := if P.domain = .full then some x else none
  let ys := Windfield.localAxis t.lat (lim gl.yMin) (lim gl.yMax) P.margin P.resolution
  let xs := Windfield.localAxis t.lon (lim gl.xMin) (lim gl.xMax) P.margin P.resolution
  let y0 := Windfield.bound lats.length wy.1
  let y1 := Windfield.bound lats.length wy.2
  let x0 := Windfield.bound lons.length wx.1
  let x1 := Windfield.bound lons.length wx.2
  { time := time
    spd := ys.map fun y => xs.map fun x => Real.sqrt ((t.wind y x).1 ^ 2 + (t.wind y x).2.1 ^ 2)
    uu := ys.map fun y => xs.map fun x => (t.wind y x).1
    vv := ys.map fun y => xs.map fun x => (t.wind y x).2.1
    prs := ys.map fun y => xs.map fun x => (t.wind y x).2.2
    gridx := ((lons.drop x0).take (x1 - x0)).map fun x : ℤ => (x : ℚ) / 100
    gridy := ((lats.drop y0).take (y1 - y0)).map fun y : ℤ => (y : ℚ) / 100 }

/-- wind/__init__.py L531-558 with L926-931 and L974-976: the run of one process over its tracks (each given by
its identifier and the layers of its time steps); tracks whose gust file is complete are left out. The
stations start without data. -/
def runProcess {K : Type} [LinearOrder K] [Zero K] (dir : K → K → K) (stations : List Station)
    (complete : ℕ → Bool) (tracks : List (ℕ × List (Layer K))) (f : Files K) : Except Err (Files K) :=
  match extractAll dir ((tracks.filter fun t => !complete t.1).map Prod.snd).flatten
      (stations.map fun s => (s, [])) with
  | .error e => .error e
  | .ok st => .ok (shutdown st f)

/-- The processes of a parallel run end in the order `order` and write the files one after the other; process
`p` of `P` has the tracks of every `P`-th track file (`Balanced.loadTracksFromFiles`). -/
def runAll {K : Type} [LinearOrder K] [Zero K] (dir : K → K → K) (stations : List Station)
    (complete : ℕ → Bool) (files : List (List (ℕ × List (Layer K)))) (P : ℕ) : List ℕ → Files K →
    Except Err (Files K)
  | [], f => .ok f
  | p :: order, f =>
    match Balanced.loadTracksFromFiles id files P p with
    | none => .error .indexError
    | some tracks => match runProcess dir stations complete tracks f with
      | .error e => .error e
      | .ok f' => runAll dir stations complete files P order f'

/-! ### Multipliers applied to a series -/

/-- The combined multipliers of a station for the eight directions. -/
structure Multipliers where
  n : ℚ
  ne : ℚ
  e : ℚ
  se : ℚ
  s : ℚ
  sw : ℚ
  w : ℚ
  nw : ℚ

/-- Utilities/tsmultipliers.py L83-106: the factor applied to a gust from the direction `bear` (degrees). Each
gust is changed by at most one of the statements since the ranges do not overlap. -/
def factor (m : Multipliers) (bear : ℚ) : ℚ :=
  if 0 ≤ bear ∧ bear < 45 then (1 / 45) * (m.n * (bear - 0) + m.ne * (45 - bear))
  else if 45 ≤ bear ∧ bear < 90 then (1 / 45) * (m.ne * (bear - 45) + m.e * (90 - bear))
  else if 90 ≤ bear ∧ bear < 135 then (1 / 45) * (m.e * (bear - 90) + m.se * (135 - bear))
  else if 135 ≤ bear ∧ bear < 180 then (1 / 45) * (m.se * (bear - 135) + m.s * (180 - bear))
  else if 180 ≤ bear ∧ bear < 225 then (1 / 45) * (m.s * (bear - 180) + m.sw * (225 - bear))
  else if 225 ≤ bear ∧ bear < 270 then (1 / 45) * (m.sw * (bear - 225) + m.w * (270 - bear))
  else if 270 ≤ bear ∧ bear < 315 then (1 / 45) * (m.w * (bear - 270) + m.nw * (315 - bear))
  else if 315 ≤ bear ∧ bear ≤ 360 then (1 / 45) * (m.nw * (bear - 315) + m.n * (360 - bear))
  else 1

/-- Utilities/tsmultipliers.py L83-110: gust and direction after the multipliers have been applied. -/
def applyFactor (m : Multipliers) (gust bear : ℚ) : ℚ × ℚ :=
  (gust * factor m bear, if gust * factor m bear = 0 then 0 else bear)

end Tcrm.Stations
