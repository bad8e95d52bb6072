import Verif.Spec.TrackGen
/-!
The track model in closed form: what the values of a synthetic track are at each time step, given the
random numbers. Time steps are `0, 1, 2, …`; step 0 is genesis.
-/
namespace Tcrm.TrackGen
open Tcrm.Cells

variable {G N : Type}

/-- `y` is `x` reduced to the range `[0, m)`. -/
def Wraps (m x y : ℚ) : Prop := 0 ≤ y ∧ y < m ∧ ∃ k : ℤ, x = y + k * m

/-- The values of a storm at each time step. Pressures are in hPa, `none` is NaN. -/
structure Path where
  lon : ℕ → ℚ
  lat : ℕ → ℚ
  speed : ℕ → ℚ
  bearing : ℕ → ℚ
  day : ℕ → ℚ
  centre : ℕ → F
  outer : ℕ → F
  rmax : ℕ → F
  cell : ℕ → ℤ
  land : ℕ → Bool
  /-- the autoregressive processes of pressure change, bearing and speed -/
  chiP : ℕ → ℚ
  chiB : ℕ → ℚ
  chiV : ℕ → ℚ
  /-- rate of change of the central pressure -/
  rate : ℕ → ℚ

/-- Random numbers of a track. -/
structure Draws where
  outer : ℚ
  land : ℚ
  size : ℚ
  /-- logistic variates, numbered in the order in which they are drawn -/
  logistic : ℕ → ℚ

/-- The row of a track at a time step. -/
def Path.row (x : Path) (dt : ℚ) (i : ℕ) : Row :=
  ⟨i * dt, x.lon i, x.lat i, x.speed i, x.bearing i, x.centre i, x.outer i, x.rmax i⟩

/-- The pressure of the outermost closed isobar (a regression on the central pressure, the ambient
pressure, the latitude and the season), unknown for storms above the ambient pressure. -/
def IsOuter (env : Env N) (ambient : ℚ) (centre : F) (lat day eps : ℚ) (outer : F) : Prop :=
  ∀ e, outer = some e ↔ ∃ p, centre = some p ∧ p ≤ ambient ∧ p ≠ env.missing ∧
    e = 2324.1564738613392 - 0.6539853183796136 * ambient - 1.3984456535888878 * p
      + 0.00074072928008818927 * p ^ 2 + 0.0044469231429346088 * lat ^ 2
      - 1.4337623534206905 * env.season day + eps

/-- Hours over land up to a time step. -/
def hoursOverLand (x : Path) (dt : ℚ) (i : ℕ) : ℚ :=
  dt * ((List.range (i + 1)).filter fun j => decide (0 < j) && x.land j).length

/-- `k` is the last time step over the sea before `i` (or genesis). -/
def LastAtSea (x : Path) (i k : ℕ) : Prop :=
  k < i ∧ (k = 0 ∨ x.land k = false) ∧ ∀ j, k < j → j < i → x.land j = true

/-- The central pressure over land: the deficit at the coast decays exponentially. -/
def Fills (env : Env N) (x : Path) (d : Draws) (i : ℕ) : Prop :=
  ∀ k, LastAtSea x i k → ∀ p, x.centre i = some p ↔ ∃ e0 p0 e, x.outer k = some e0 ∧
    x.centre k = some p0 ∧ x.outer (i - 1) = some e ∧
    p = e - (e0 - p0) * env.exp (-(0.03515 + 0.000435 * (e0 - p0) + 0.002865 * x.speed k + d.land) *
      hoursOverLand x env.dt i)

/-- The central pressure over the sea: it changes at the given rate, but rises if it were to fall more
than four standard deviations below the lowest pressure observed in the cell. -/
def Drifts (env : Env N) (x : Path) (i : ℕ) : Prop :=
  ∀ p, x.centre i = some p ↔ ∃ p', x.centre (i - 1) = some p' ∧
    p = p' + env.dt * (if p' + env.dt * x.rate i < env.pMin (x.cell i) - 4 * env.pSig (x.cell i)
      then |x.rate i| else x.rate i)

/-- One step of an autoregressive process of order one. -/
def Autoregressive (k : Coef) (draw : ℚ) (chi : ℕ → ℚ) (i : ℕ) : Prop :=
  chi i = k.alpha * chi (i - 1) + k.phi * draw

/-- The storm moves on with its bearing and speed. -/
def Moves (env : Env N) (x : Path) (i : ℕ) : Prop :=
  (x.lon i, x.lat i) = env.move (x.bearing (i - 1)) (env.dt * x.speed (i - 1)) (x.lon (i - 1)) (x.lat (i - 1))

/-- All values of step `i` follow from those before and the random numbers. -/
structure StepLaw (env : Env N) (x : Path) (d : Draws) (i : ℕ) : Prop where
  cell : getCellNum (x.lon i) (x.lat i) env.gl env.gs = .ok (x.cell i)
  land : x.land i = env.onLand (x.lon i) (x.lat i)
  day : Wraps 365 (x.day 0 + i * env.dt / 24) (x.day i)
  chiP : Autoregressive (env.dpStats (x.cell i) (x.land i)) (d.logistic (3 * (i - 1))) x.chiP i
  chiB : Autoregressive (env.bStats (x.cell i) (x.land i)) (d.logistic (3 * (i - 1) + 1)) x.chiB i
  chiV : Autoregressive (env.vStats (x.cell i) (x.land i)) (d.logistic (3 * (i - 1) + 2)) x.chiV i
  rate : let k := env.dpStats (x.cell i) (x.land i)
    x.rate i = (if i = 1 then 0 else k.mu) + k.sigma * x.chiP i
  bearing : let k := env.bStats (x.cell i) (x.land i)
    Wraps 360 (if i = 1 then x.bearing 0 + env.degrees (k.sigma * x.chiB i)
      else env.degrees (k.mu + k.sigma * x.chiB i)) (x.bearing i)
  speed : let k := env.vStats (x.cell i) (x.land i)
    x.speed i = if i = 1 then |x.speed 0 + (|k.sigma * x.chiV i|)| else |k.mu + k.sigma * x.chiV i|
  centre : if x.land i then Fills env x d i else Drifts env x i
  outer : IsOuter env (env.envPressure (x.day i) (x.lat i) (x.lon i)) (x.centre i) (x.lat i) (x.day i)
    d.outer (x.outer i)
  rmax : ∀ r, x.rmax i = some r ↔ ∃ e p, x.outer i = some e ∧ x.centre i = some p ∧
    r = env.exp (4.22 - 0.0198 * (e - p) + 0.0023 * |x.lat i| + d.size)

/-- The storm has filled: no outer pressure, or a deficit below 5 hPa (2 hPa in the first 12 hours). -/
def Filled (x : Path) (dt : ℚ) (i : ℕ) : Prop :=
  ∀ e p, x.outer i = some e → x.centre i = some p → e - p < if 12 < i * dt then 5 else 2

/-- The track model: a storm starts at genesis and goes on, for `n` time steps, until it leaves the
domain, fills, or the greatest number of steps is reached. -/
structure Obeys (env : Env N) (gen : Genesis) (d : Draws) (x : Path) (n : ℕ) : Prop where
  position : x.lon 0 = gen.lon ∧ x.lat 0 = gen.lat
  motion : x.speed 0 = gen.speed ∧ x.bearing 0 = gen.bearing
  intensity : x.centre 0 = some gen.pressure ∧ x.rmax 0 = some gen.rmax ∧
    IsOuter env gen.envPressure (some gen.pressure) gen.lat (x.day 0) d.outer (x.outer 0)
  day : x.day 0 = env.dayOfYear gen.time
  chi : x.chiP 0 = 0 ∧ x.chiB 0 = 0 ∧ x.chiV 0 = 0
  length : 0 < n ∧ n ≤ env.maxTimeSteps
  steps : ∀ i, 0 < i → i < n → Moves env x i ∧ InDomain env.gl (x.lon i) (x.lat i) ∧
    StepLaw env x d i ∧ ¬ Filled x env.dt i
  ends : n < env.maxTimeSteps → Moves env x n ∧ (¬ InDomain env.gl (x.lon n) (x.lat n) ∨
    StepLaw env x d n ∧ Filled x env.dt n)

end Tcrm.TrackGen

namespace Tcrm.TrackGen
open Tcrm.Cells

variable {G N : Type}

/-- `u` is a number drawn uniformly between `a` and `b`. -/
def Uniform (R : Rng G) (a b u : ℚ) : Prop := ∃ g, (R.uniform a b g).1 = u

/-- `v` is the quantile of a table (values and cumulative probabilities) for probability `u`: the first
value whose cumulative probability is at least `u`. -/
def IsQuantile (table : List (ℚ × ℚ)) (u v : ℚ) : Prop :=
  ∃ (i : ℕ) (c : ℚ), table[i]? = some (v, c) ∧ u ≤ c ∧
    ∀ (j : ℕ) (p : ℚ × ℚ), j < i → table[j]? = some p → p.2 < u

/-- A value drawn from a table. -/
def DrawnFrom (R : Rng G) (table : List (ℚ × ℚ)) (v : ℚ) : Prop :=
  ∃ u, Uniform R 0 1 u ∧ IsQuantile table u v

/-- `p` is the cumulative probability in the last row before the first value at or above `top`; in the
last row of all if there is none before. -/
def ProbabilityBelow (table : List (ℚ × ℚ)) (top p : ℚ) : Prop :=
  ∃ (i : ℕ) (v : ℚ), table[i]? = some (v, p) ∧
    ((∀ (j : ℕ) (r : ℚ × ℚ), j ≤ i → table[j]? = some r → r.1 < top) ∧
        (∀ r, table[i + 1]? = some r → top ≤ r.1) ∨
      i + 1 = table.length ∧ ∃ r, table[0]? = some r ∧ top ≤ r.1)

/-- Genesis conditions of a track without prescribed values: position, motion and day from the
distributions of the origin and of the cell, an hour of the day, a pressure from the part of the
distribution below the environment, and a radius up to 100 km with a normal deviation `eps`. -/
structure Sampled (R : Rng G) (env : Env N) (year : ℤ) (gen : Genesis) (eps : ℚ) : Prop where
  position : ∃ u u', Uniform R 0 1 u ∧ Uniform R 0 1 u' ∧ env.origin u u' = .ok (gen.lon, gen.lat)
  cell : ∃ cell, getCellNum gen.lon gen.lat env.gl env.gs = .ok cell ∧
    DrawnFrom R (env.cdfBearing cell) gen.bearing ∧ DrawnFrom R (env.cdfSpeed cell) gen.speed ∧
    DrawnFrom R (env.cdfDay cell) gen.day ∧
    ∃ p u, ProbabilityBelow (env.cdfPressure cell) gen.envPressure p ∧ Uniform R 0 p u ∧
      IsQuantile (env.cdfPressure cell) u gen.pressure
  time : ∃ h, Uniform R 0 24 h ∧ env.time year gen.day ⌊h⌋ = some gen.time
  size : (∃ n, (env.npNormal 0.335 n).1 = eps) ∧ gen.rmax ≤ 100 ∧
    gen.rmax = env.exp (4.22 - 0.0198 * (gen.envPressure - gen.pressure) + 0.0023 * |gen.lat| + eps)

end Tcrm.TrackGen
