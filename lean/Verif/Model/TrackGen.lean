import Verif.Model.Cdf
import Verif.Model.Cells
import Verif.Model.Balanced
/-!
Generation of synthetic tracks.

Numbers are rationals and arithmetic is exact (the code stores track columns as float32).
`F = Option ℚ` is a number that may be NaN (`none`): NaN propagates through arithmetic and
every comparison with NaN is false.  Trigonometry, `exp`, the environmental pressure field, the
land mask, the cell statistics, the sampling tables and the calendar are parameters.  Random
number generators are abstract state machines: `G` is the state of the module-level `PRNG`, `N`
the state of the global numpy generator.
-/
namespace Tcrm.TrackGen
open Tcrm.Cells

/-- Why a call does not return normally. -/
inductive Err where
  | cell (e : Tcrm.Cells.Err)
  | table (e : Tcrm.Cdf.Err)
  | valueError
  | indexError
  | attributeError
  | zeroDivision
  | systemExit
  | outOfFuel
  deriving DecidableEq, Repr

abbrev F := Option ℚ

def F.add (a b : F) : F := a.bind fun x => b.map (x + ·)
def F.sub (a b : F) : F := a.bind fun x => b.map (x - ·)
def F.mul (a b : F) : F := a.bind fun x => b.map (x * ·)
/-- `a < b`, false if either is NaN -/
def F.lt : F → F → Bool
  | some x, some y => decide (x < y)
  | _, _ => false

/-- Draws from the module-level generator `PRNG` (TrackGenerator/TrackGenerator.py L1644-1676,
Utilities/tcrandom.py L29-119). `ofKey key` is `Generator(Philox(key=key))`. -/
structure Rng (G : Type) where
  ofKey : ℤ → G
  uniform : ℚ → ℚ → G → ℚ × G
  normal : ℚ → ℚ → G → ℚ × G
  logistic : G → ℚ × G
  lognorm : ℚ → ℚ → ℚ → G → ℚ × G

/-- AR(1) coefficients of one cell and land/sea class. -/
structure Coef where
  alpha : ℚ
  phi : ℚ
  mu : ℚ
  sigma : ℚ

/-- Everything `generateTracks` reads but does not change. -/
structure Env (N : Type) where
  gl : Limit
  gs : Space
  inner : Option Limit
  dt : ℚ
  maxTimeSteps : ℕ
  /-- `maputils.bear2LatLon(bearing, distance, lon, lat)` -/
  move : ℚ → ℚ → ℚ → ℚ → ℚ × ℚ
  /-- `mslp.get_pressure([day, lat, lon])` -/
  envPressure : ℚ → ℚ → ℚ → ℚ
  /-- `landfall.onLand(lon, lat)`; its internal `tol` is read only by `pChange`, which is not called -/
  onLand : ℚ → ℚ → Bool
  /-- cell statistics of `pressure_rate`, `bearing`, `speed`, by cell and `onLand` -/
  dpStats : ℤ → Bool → Coef
  bStats : ℤ → Bool → Coef
  vStats : ℤ → Bool → Coef
  /-- `pStats.coeffs.min`, `pStats.coeffs.sig` -/
  pMin : ℤ → ℚ
  pSig : ℤ → ℚ
  /-- `np.exp`, `math.degrees`, and `np.cos(2*pi*jday/365)` -/
  exp : ℚ → ℚ
  degrees : ℚ → ℚ
  season : ℚ → ℚ
  /-- `sys.maxsize` -/
  missing : ℚ
  /-- `originSampler.ppf` -/
  origin : ℚ → ℚ → Except Tcrm.Cdf.Err (ℚ × ℚ)
  /-- rows (value, CDF) of the tables of a cell -/
  cdfBearing : ℤ → List (ℚ × ℚ)
  cdfSpeed : ℤ → List (ℚ × ℚ)
  cdfDay : ℤ → List (ℚ × ℚ)
  cdfPressure : ℤ → List (ℚ × ℚ)
  /-- an RMW distribution file was loaded (`allCDFInitSize` is an array) -/
  sizeDist : Bool
  /-- `datetime.strptime("%04d-%03d %d:00" % …)` in hours, `none` for ValueError -/
  time : ℤ → ℚ → ℤ → Option ℚ
  /-- day of year plus hour/24 of a time -/
  dayOfYear : ℚ → ℚ
  /-- `np.random.normal(0, scale)` on the global generator -/
  npNormal : ℚ → N → ℚ × N

variable {G N : Type}

/-- `np.mod(x, 360.)` -/
def mod360 (x : ℚ) : ℚ := x - 360 * ⌊x / 360⌋

/-- `np.mod(x, 365)` -/
def mod365 (x : ℚ) : ℚ := x - 365 * ⌊x / 365⌋

/-- Utilities/loadData.py L666-723 (`getPoci`) for scalar arguments and the default
coefficients; NaN if `penv < pcentre`, if `pcentre` is missing or if `pcentre` is NaN. -/
def getPoci (env : Env N) (penv : ℚ) (pcentre : F) (lat jday eps : ℚ) : F :=
  pcentre.bind fun p =>
    if penv < p then none
    else if p = env.missing then none
    else some (2324.1564738613392 + -0.6539853183796136 * penv + -1.3984456535888878 * p
      + 0.00074072928008818927 * p * p + 0.0044469231429346088 * lat * lat
      + -1.4337623534206905 * env.season jday + eps)

/-- TrackGenerator/trackSize.py L21-55 (`rmax`) with the default coefficients -/
def rmaxModel (env : Env N) (dp : F) (lat eps : ℚ) : F :=
  dp.map fun d => env.exp (4.22 + -0.0198 * d + 0.0023 * |lat| + eps)

/-- One time step of a track: the columns returned by `_singleTrack` (the cyclone number is
constant, the date is `initTime + age`). -/
structure Row where
  age : ℚ
  lon : ℚ
  lat : ℚ
  speed : ℚ
  bearing : ℚ
  pressure : F
  poci : F
  rmax : F
  deriving DecidableEq

/-- Loop variables of `_singleTrack` and the attributes of `self` it updates. -/
structure St (G : Type) where
  row : Row
  jday : ℚ
  tol : ℚ
  offPressure : F
  offPoci : F
  lfSpeed : ℚ
  theta : ℚ
  v : ℚ
  vChi : ℚ
  bChi : ℚ
  dpChi : ℚ
  dp : ℚ
  g : G

/-- TrackGenerator/TrackGenerator.py L1069-1109 (`_stepPressureChange`): new `dpChi`, `dp`. -/
def stepPressureChange (R : Rng G) (k : Coef) (i : ℕ) (chi dp : ℚ) (g : G) : ℚ × ℚ × G :=
  let (x, g) := R.logistic g
  let chi := k.alpha * chi + k.phi * x
  (chi, if i = 1 then dp + k.sigma * chi else k.mu + k.sigma * chi, g)

/-- TrackGenerator/TrackGenerator.py L1111-1155 (`_stepBearing`): new `bChi`, `theta`. -/
def stepBearing (R : Rng G) (degrees : ℚ → ℚ) (k : Coef) (i : ℕ) (chi theta : ℚ) (g : G) :
    ℚ × ℚ × G :=
  let (x, g) := R.logistic g
  let chi := k.alpha * chi + k.phi * x
  (chi, mod360 (if i = 1 then theta + degrees (k.sigma * chi)
    else degrees (k.mu + k.sigma * chi)), g)

/-- TrackGenerator/TrackGenerator.py L1154-1195 (`_stepSpeed`): new `vChi`, `v`. -/
def stepSpeed (R : Rng G) (k : Coef) (i : ℕ) (chi v : ℚ) (g : G) : ℚ × ℚ × G :=
  let (x, g) := R.logistic g
  let chi := k.alpha * chi + k.phi * x
  (chi, if i = 1 then v + |k.sigma * chi| else |k.mu + k.sigma * chi|, g)

/-- TrackGenerator/TrackGenerator.py L1239-1256 (`_notValidTrackStep`) -/
def notValidTrackStep (pressure poci : F) (age : ℚ) : Bool :=
  if poci = none then true
  else if age > 12 ∧ (F.lt (F.sub poci pressure) (some 5)) = true then true
  else if age ≤ 12 ∧ (F.lt (F.sub poci pressure) (some 2)) = true then true
  else false

/-- TrackGenerator/TrackGenerator.py L975-979: the termination test on the new position -/
def outside (gl : Limit) (lon lat : ℚ) : Bool :=
  decide (lon < gl.xMin ∨ gl.xMax ≤ lon ∨ lat ≤ gl.yMin ∨ gl.yMax < lat)

/-- Central pressure over land: TrackGenerator/TrackGenerator.py L1007-1012. -/
def landPressure (env : Env N) (lfeps tol : ℚ) (s : St G) : F :=
  let deltaP := F.sub s.offPoci s.offPressure
  let alpha := deltaP.map fun d => 0.03515 + 0.000435 * d + 0.002865 * s.lfSpeed + lfeps
  F.sub s.row.poci (F.mul deltaP (alpha.map fun a => env.exp (-a * tol)))

/-- Central pressure over sea: TrackGenerator/TrackGenerator.py L1018-1031. -/
def seaPressure (env : Env N) (cell : ℤ) (dp : ℚ) (prev : F) : F :=
  let p := F.add prev (some (dp * env.dt))
  if F.lt p (some (env.pMin cell - 4 * env.pSig cell)) then F.add prev (some (|dp| * env.dt)) else p

/-- One pass through the loop of `_singleTrack`, TrackGenerator/TrackGenerator.py L956-1064:
`none` for a `return …[:i]`, otherwise row `i`. -/
def trackStep (R : Rng G) (env : Env N) (rmwEps : Option ℚ) (pociEps lfeps : ℚ) (i : ℕ)
    (s : St G) : Except Err (Option Row × St G) :=
  let pos := env.move s.row.bearing (env.dt * s.row.speed) s.row.lon s.row.lat
  let lon := pos.1
  let lat := pos.2
  let age := s.row.age + env.dt
  let jday := mod365 (s.jday + env.dt / 24)
  let penv := env.envPressure jday lat lon
  if outside env.gl lon lat then .ok (none, s)
  else
    match getCellNum lon lat env.gl env.gs with
    | .error e => .error (.cell e)
    | .ok cell =>
      let land := env.onLand lon lat
      -- each step function returns (new chi, new value, new generator)
      let sp := stepPressureChange R (env.dpStats cell land) i s.dpChi s.dp s.g
      let sb := stepBearing R env.degrees (env.bStats cell land) i s.bChi s.theta sp.2.2
      let sv := stepSpeed R (env.vStats cell land) i s.vChi s.v sb.2.2
      let speed := |sv.2.1|
      let tol := if land then s.tol + env.dt else s.tol
      let pressure := if land then landPressure env lfeps tol s
        else seaPressure env cell sp.2.1 s.row.pressure
      let poci := getPoci env penv pressure lat jday pociEps
      if env.sizeDist then .error .valueError
      else
        match rmwEps with
        | none => .error .attributeError
        | some eps =>
          let rmax := rmaxModel env (F.sub poci pressure) lat eps
          let row : Row := ⟨age, lon, lat, speed, sb.2.1, pressure, poci, rmax⟩
          let s' : St G :=
            { row := row, jday := jday, tol := tol
              offPressure := if land then s.offPressure else pressure
              offPoci := if land then s.offPoci else poci
              lfSpeed := if land then s.lfSpeed else speed
              theta := sb.2.1, v := sv.2.1, vChi := sv.1, bChi := sb.1, dpChi := sp.1, dp := sp.2.1
              g := sv.2.2 }
          if notValidTrackStep pressure poci age then .ok (none, s') else .ok (some row, s')

/-- The loop `for i in range(1, maxTimeSteps)`: `k` passes are left. Returns the rows kept and
the state of the generator. -/
def trackLoop (R : Rng G) (env : Env N) (rmwEps : Option ℚ) (pociEps lfeps : ℚ) :
    ℕ → ℕ → St G → Except Err (List Row × G)
  | 0, _, s => .ok ([], s.g)
  | k + 1, i, s =>
    match trackStep R env rmwEps pociEps lfeps i s with
    | .error e => .error e
    | .ok (none, s') => .ok ([], s'.g)
    | .ok (some row, s') =>
      match trackLoop R env rmwEps pociEps lfeps k (i + 1) s' with
      | .error e => .error e
      | .ok (rows, g) => .ok (row :: rows, g)

/-- Genesis conditions of one attempt. -/
structure Genesis where
  lon : ℚ
  lat : ℚ
  bearing : ℚ
  speed : ℚ
  day : ℚ
  time : ℚ
  envPressure : ℚ
  pressure : ℚ
  rmax : ℚ
  deriving DecidableEq

/-- TrackGenerator/TrackGenerator.py L851-1067 (`_singleTrack`) -/
def singleTrack (R : Rng G) (env : Env N) (rmwEps : Option ℚ) (gen : Genesis) (g : G) :
    Except Err (List Row × G) :=
  if env.maxTimeSteps = 0 then .error .indexError
  else
    let (pociEps, g) := R.normal 0 2.5717 g
    let (lfeps, g) := R.lognorm 0.69527 (-0.06146) 0.0471 g
    let jday := env.dayOfYear gen.time
    let poci := getPoci env gen.envPressure (some gen.pressure) gen.lat jday pociEps
    let row : Row := ⟨0, gen.lon, gen.lat, gen.speed, gen.bearing, some gen.pressure, poci, some gen.rmax⟩
    let s : St G :=
      { row := row, jday := jday, tol := 0, offPressure := some gen.pressure, offPoci := poci
        lfSpeed := gen.speed, theta := gen.bearing, v := gen.speed, vChi := 0, bChi := 0
        dpChi := 0, dp := 0, g := g }
    match trackLoop R env rmwEps pociEps lfeps (env.maxTimeSteps - 1) 1 s with
    | .error e => .error e
    | .ok (rows, g) => .ok (row :: rows, g)

/-- Optional arguments of `generateTracks` -/
structure Init where
  lon : Option ℚ := none
  lat : Option ℚ := none
  speed : Option ℚ := none
  bearing : Option ℚ := none
  pressure : Option ℚ := none
  rmax : Option ℚ := none
  day : Option ℚ := none

/-- `if not x`: `None` and `0` are both false. -/
def truthy (x : Option ℚ) : Option ℚ := x.filter (· ≠ 0)

/-- State carried from one attempt to the next: the two generators, `self.rmwEps`, and the local
variable `initEnvPressure`, which is overwritten by the first attempt (L619-623). -/
structure W (G N : Type) where
  g : G
  n : N
  rmwEps : Option ℚ
  envP : Option ℚ

/-- The `while genesisRmax > 100` loop, TrackGenerator/TrackGenerator.py L648-658: returns the
radius, the variate and the generator. -/
def drawRmax (env : Env N) (dp lat : ℚ) : ℕ → N → Except Err (ℚ × ℚ × N)
  | 0, _ => .error .outOfFuel
  | fuel + 1, n =>
    let (eps, n) := env.npNormal 0.335 n
    let r := env.exp (4.22 + -0.0198 * dp + 0.0023 * |lat| + eps)
    if r > 100 then drawRmax env dp lat fuel n else .ok (r, eps, n)

/-- `ppf(uniform(), table)` unless a (truthy) value is prescribed. -/
def sampleOr (R : Rng G) (init : Option ℚ) (table : List (ℚ × ℚ)) (g : G) : Except Err (ℚ × G) :=
  match truthy init with
  | some x => .ok (x, g)
  | none =>
    let (u, g) := R.uniform 0 1 g
    match Tcrm.Cdf.ppf u table with
    | .error e => .error (.table e)
    | .ok x => .ok (x, g)

/-- `cdfInitPressure[ix - 1, 1]`, with `-1` the last row; `none` for IndexError. -/
def upperProb (table : List (ℚ × ℚ)) (envP : ℚ) : Option ℚ :=
  let ix := Tcrm.Cdf.searchsorted (table.map (·.1)) envP
  if ix = 0 then (table.getLast?).map (·.2) else (table[ix - 1]?).map (·.2)

/-- Genesis position: TrackGenerator/TrackGenerator.py L561-571 -/
def genesisPoint (R : Rng G) (env : Env N) (init : Init) (g : G) : Except Err (ℚ × ℚ × G) :=
  match truthy init.lon, truthy init.lat with
  | some a, some b => .ok (a, b, g)
  | _, _ =>
    let (u1, g) := R.uniform 0 1 g
    let (u2, g) := R.uniform 0 1 g
    match env.origin u1 u2 with
    | .error e => .error (.table e)
    | .ok (a, b) => .ok (a, b, g)

/-- Genesis pressure: TrackGenerator/TrackGenerator.py L627-638 -/
def genesisPressure (R : Rng G) (init : Option ℚ) (table : List (ℚ × ℚ)) (envP : ℚ) (g : G) :
    Except Err (ℚ × G) :=
  match truthy init with
  | some x => .ok (x, g)
  | none =>
    match upperProb table envP with
    | none => .error .indexError
    | some p =>
      let (u, g) := R.uniform 0 p g
      match Tcrm.Cdf.ppf u table with
      | .error e => .error (.table e)
      | .ok x => .ok (x, g)

/-- Genesis size: TrackGenerator/TrackGenerator.py L642-661. An RMW distribution loaded from a
file is a numpy array, whose truth value raises ValueError (L643). Returns the radius, the new
`self.rmwEps` and the global generator. -/
def genesisRmax (env : Env N) (fuel : ℕ) (init : Option ℚ) (rmwEps : Option ℚ) (dp lat : ℚ) (n : N) :
    Except Err (ℚ × Option ℚ × N) :=
  match truthy init with
  | some x => .ok (x, rmwEps, n)
  | none =>
    if env.sizeDist then .error .valueError
    else
      match drawRmax env dp lat fuel n with
      | .error e => .error e
      | .ok (r, eps, n) => .ok (r, some eps, n)

/-- Sampling of the genesis conditions, TrackGenerator/TrackGenerator.py L561-661, in the order of
the code. -/
def sampleGenesis (R : Rng G) (env : Env N) (fuel : ℕ) (init : Init) (year : ℤ) (w : W G N) :
    Except Err (Genesis × W G N) := do
  let (lon, lat, g) ← genesisPoint R env init w.g
  let cell ← (getCellNum lon lat env.gl env.gs).mapError Err.cell
  let (bearing, g) ← sampleOr R init.bearing (env.cdfBearing cell) g
  let (speed, g) ← sampleOr R init.speed (env.cdfSpeed cell) g
  let (day, g) ← sampleOr R init.day (env.cdfDay cell) g
  let (h, g) := R.uniform 0 24 g
  let time ← (match env.time year day ⌊h⌋ with
    | some t => Except.ok t
    | none => Except.error Err.valueError)
  let envP := match truthy w.envP with
    | some p => p
    | none => env.envPressure day lat lon
  let (pressure, g) ← genesisPressure R init.pressure (env.cdfPressure cell) envP g
  let (rmax, eps, n) ← genesisRmax env fuel init.rmax w.rmwEps (envP - pressure) lat w.n
  return (⟨lon, lat, bearing, speed, day, time, envP, pressure, rmax⟩, ⟨g, n, eps, some envP⟩)

/-- `np.round(x)`: to the nearest integer, ties to even -/
def roundHalfEven (x : ℚ) : ℤ :=
  let f := ⌊x⌋
  if x - f < 1 / 2 then f else if 1 / 2 < x - f then f + 1 else if f % 2 = 0 then f else f + 1

/-- `np.round(x, 2)` -/
def round2 (x : ℚ) : ℚ := roundHalfEven (100 * x) / 100

/-- A generated track with its id and (for the statements) its genesis conditions. -/
structure Track where
  num : ℕ
  simId : ℤ
  gen : Genesis
  rows : List Row
  deriving DecidableEq

/-- TrackGenerator/TrackGenerator.py L706-713: the filters, `rows` non-empty by construction -/
def accept (env : Env N) (t : Track) : Bool :=
  match t.rows, t.rows.getLast? with
  | first :: _, some last =>
    !(decide (last.age < 12)) &&
    F.lt (some 1) (F.sub first.poci first.pressure) &&
    t.rows.all (fun r => F.lt (r.pressure.map round2) (r.poci.map round2)) &&
    (t.rows.all (fun r => F.lt (some 5) r.rmax) && t.rows.all (fun r => F.lt r.rmax (some 500))) &&
    F.lt first.rmax (some 100) &&
    (match env.inner with
     | none => true
     | some l => t.rows.all fun r =>
        decide (l.xMin < r.lon ∧ r.lon < l.xMax ∧ l.yMin < r.lat ∧ r.lat < l.yMax))
  | _, _ => false

/-- One pass of the `while j < nTracks` loop, TrackGenerator/TrackGenerator.py L559-719: a track
that is kept, or nothing. -/
def attempt (R : Rng G) (env : Env N) (fuel : ℕ) (init : Init) (year : ℤ) (simId : ℤ) (j : ℕ)
    (w : W G N) : Except Err (Option Track × W G N) :=
  match sampleGenesis R env fuel init year w with
  | .error e => .error e
  | .ok (gen, w) =>
    let next := env.move gen.bearing (env.dt * gen.speed) gen.lon gen.lat
    if ¬ ((env.gl.xMin ≤ next.1 ∧ next.1 ≤ env.gl.xMax) ∧
        (env.gl.yMin ≤ next.2 ∧ next.2 ≤ env.gl.yMax)) then .ok (none, w)
    else if gen.envPressure - gen.pressure < 2 then .ok (none, w)
    else
      match singleTrack R env w.rmwEps gen w.g with
      | .error e => .error e
      | .ok (rows, g) =>
        let t : Track := ⟨j, simId, gen, rows⟩
        .ok (if accept env t then some t else none, { w with g := g })

/-- The `while j < nTracks` loop with at most `fuel` passes; `todo = nTracks - j`. -/
def genLoop (R : Rng G) (env : Env N) (init : Init) (year : ℤ) (simId : ℤ) :
    ℕ → ℕ → ℕ → W G N → Except Err (List Track × W G N)
  | _, 0, _, w => .ok ([], w)
  | 0, _ + 1, _, _ => .error .outOfFuel
  | fuel + 1, todo + 1, j, w =>
    match attempt R env fuel init year simId j w with
    | .error e => .error e
    | .ok (none, w) => genLoop R env init year simId fuel (todo + 1) j w
    | .ok (some t, w) =>
      match genLoop R env init year simId fuel todo (j + 1) w with
      | .error e => .error e
      | .ok (ts, w) => .ok (t :: ts, w)

/-- TrackGenerator/TrackGenerator.py L440-721 (`generateTracks`). `initEnvPressure` is the `envP`
component of the state on entry; a negative `nTracks` cannot occur (Poisson counts). -/
def generateTracks (R : Rng G) (env : Env N) (fuel : ℕ) (nTracks : ℕ) (simId : ℤ) (init : Init)
    (w : W G N) : Except Err (List Track × W G N) :=
  let (y, g) := R.uniform 1900 9998 w.g
  genLoop R env init ⌊y⌋ simId fuel nTracks 0 { w with g := g }

/-- What a rank carries from one simulation to the next. -/
structure RankState (G N : Type) where
  g : G
  n : N
  rmwEps : Option ℚ

/-- Utilities/tcrandom.py L38-39 (`Random.__init__`): the key of the generator for a seed and a
stream number, `Philox(key=seed + stream)`. (A negative key is rejected by numpy; not modelled.) -/
def key (seed stream : ℤ) : ℤ := seed + stream

/-- Body of the loop over simulations, TrackGenerator/TrackGenerator.py L1872-1893. `lastIndex` is
`N = sims[-1].index`; `sim.index / float(N)` raises ZeroDivisionError when there is only one
simulation. With a non-zero seed the generator is replaced by `Random(seed, index)`. -/
def runSim (R : Rng G) (env : Env N) (fuel : ℕ) (trackSeed : ℤ) (lastIndex : ℕ) (sim : ℕ × ℕ)
    (s : RankState G N) : Except Err ((ℕ × List Track) × RankState G N) :=
  if lastIndex = 0 then .error .zeroDivision
  else
    let g := if trackSeed ≠ 0 then R.ofKey (key trackSeed sim.1) else s.g
    match generateTracks R env fuel sim.2 sim.1 {} ⟨g, s.n, s.rmwEps, none⟩ with
    | .error e => .error e
    | .ok (ts, w) => .ok ((sim.1, ts), ⟨w.g, w.n, w.rmwEps⟩)

/-- The loop over the simulations of one rank; returns the files written. -/
def runSims (R : Rng G) (env : Env N) (fuel : ℕ) (trackSeed : ℤ) (lastIndex : ℕ) :
    List (ℕ × ℕ) → RankState G N → Except Err (List (ℕ × List Track))
  | [], _ => .ok []
  | sim :: rest, s =>
    match runSim R env fuel trackSeed lastIndex sim s with
    | .error e => .error e
    | .ok (out, s) =>
      match runSims R env fuel trackSeed lastIndex rest s with
      | .error e => .error e
      | .ok outs => .ok (out :: outs)

/-- TrackGenerator/TrackGenerator.py L1813-1895 (`run`) on rank `p` of `P`: `counts` are the track
numbers drawn with the seeded global generator (the same on every rank), `n0` the state of that
generator afterwards, `g0` the module-level generator. Files written: simulation index and tracks. -/
def runRank (R : Rng G) (env : Env N) (fuel : ℕ) (seasonSeed trackSeed : ℤ) (counts : List ℕ)
    (g0 : G) (n0 : N) (P p : ℕ) : Except Err (List (ℕ × List Track)) :=
  if 1 < P ∧ (seasonSeed = 0 ∨ trackSeed = 0) then .error .systemExit
  else if counts = [] then .error .indexError
  else runSims R env fuel trackSeed (counts.length - 1)
    (Tcrm.Balanced.balanced (counts.zipIdx.map fun c => (c.2, c.1)) P p) ⟨g0, n0, none⟩

end Tcrm.TrackGen
