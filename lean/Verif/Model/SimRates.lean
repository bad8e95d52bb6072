import Verif.Model.Evaluate
/-!
What is reported of all simulations together: `synthetic` and the statistics of Evaluate/landfallRates.py,
longitudeCrossing.py and pressureDistribution.py in a single process. A simulation is the list of tracks of one track
file; `none` is nan in the first two and a masked value in the maps of pressure.
-/
namespace Tcrm.SimRates
open Tcrm.Geometry (Point)
open Tcrm.Evaluate

/-- `np.mean` along the axis of the simulations: a single nan is enough for the result to be nan. -/
def nanMean (vs : List (Option ℚ)) : Option ℚ :=
  match vs.mapM id with
  | some ws => mean ws
  | none => none

/-- `np.sort`: nan last -/
def nanSort (vs : List (Option ℚ)) : List (Option ℚ) :=
  (sort (vs.filterMap id)).map some ++ List.replicate (vs.countP fun v => v.isNone) none

/-- `scipy.stats.scoreatpercentile` (`percentile` in all three files) of values some of which may be nan -/
def nanPercentile (vs : List (Option ℚ)) (per : ℚ) : Option ℚ :=
  if vs = [] then none
  else
    let s := nanSort vs
    let idx := per / 100 * (s.length - 1)
    let i := ⌊idx⌋.toNat
    if idx = i then s.getD i none
    else
      match s.getD i none, s.getD (i + 1) none with
      | some a, some b => some (a * ((i + 1 : ℚ) - idx) + b * (idx - i))
      | _, _ => none

/-- Mean and percentiles of one gate, or of one interval of a gate -/
structure Rate where
  mean : Option ℚ
  upper : Option ℚ
  lower : Option ℚ
  deriving DecidableEq, Repr

/-- Evaluate/landfallRates.py L154-160 (`calculateStats`), longitudeCrossing.py L162-172 (`calcStats`),
pressureDistribution.py L203-205, for one column -/
def stats (vs : List (Option ℚ)) : Rate := ⟨nanMean vs, nanPercentile vs 95, nanPercentile vs 5⟩

/-- One row of the array of a statistic: a histogram that is nan is nan everywhere. -/
def row (n : Nat) : Option (List ℚ) → List (Option ℚ)
  | some h => h.map some
  | none => List.replicate n none

/-- Statistics of all columns of an array of `n` columns -/
def columns (n : Nat) (rows : List (List (Option ℚ))) : List Rate :=
  (List.range n).map fun j => stats (rows.map fun r => r.getD j none)

/-- Evaluate/landfallRates.py L132-170 and L249-260 (`processResults`, `calculateStats`, `setOutput`, `synthetic`):
landfall and leaving the land, by gate -/
def landfallRates (gates : List (Point ℚ)) (sims : List (List Track)) : List Rate × List Rate :=
  let n := gates.length - 1
  (columns n (sims.map fun ts => row n (processTracks gates ts).1),
   columns n (sims.map fun ts => row n (processTracks gates ts).2))

/-- Evaluate/longitudeCrossing.py L159-172 and L264-271 (`calcStats`, `synthetic`) for one line of longitude: all crossings,
those to the west and those to the east -/
def crossingRates (g : ℚ) (gateLats : List ℚ) (sims : List (List Track)) : List Rate × List Rate × List Rate :=
  let n := gateLats.length - 1
  (columns n (sims.map fun ts => row n (findCrossings g gateLats ts).1),
   columns n (sims.map fun ts => row n (findCrossings g gateLats ts).2.1),
   columns n (sims.map fun ts => row n (findCrossings g gateLats ts).2.2))

/-- `ma.mean` along the axis of the simulations: masked values are left out. -/
def maskedMean (vs : List (Option ℚ)) : Option ℚ := mean (vs.filterMap id)

/-- Evaluate/pressureDistribution.py L188-196 and L307-316 for one cell: the mean over all simulations of the mean, minimum,
maximum and median of the cell -/
def pressureCell (xmin xmax ymin ymax : ℚ) (sims : List (List Track)) : CellStats :=
  let c := sims.map (cellStats xmin xmax ymin ymax)
  ⟨maskedMean (c.map (·.mean)), maskedMean (c.map (·.min)), maskedMean (c.map (·.max)), maskedMean (c.map (·.med))⟩

/-- Evaluate/pressureDistribution.py L203-205 and L314: the distribution of the minimum pressure in all simulations, and
L315 all minima one after the other -/
def minimumRates (g : Limit) (sims : List (List Track)) : Except Err (List Rate × List ℚ) :=
  match sims.mapM (calcMinPressure g) with
  | .error e => .error e
  | .ok rs => .ok (columns (pressureBins.length - 1) (rs.map fun r => row (pressureBins.length - 1) r.1), rs.flatMap (·.2))

end Tcrm.SimRates
