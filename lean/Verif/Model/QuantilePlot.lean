import Verif.Model.Evaluate
/-!
Quantile-quantile plot of the lowest pressures of observed and simulated storms.
Models /repo/PlotInterface/figures.py (`QuantileFigure`) and /repo/Evaluate/pressureDistribution.py
(`plotMinPressureQuantiles`), for a run on one processor.
-/
namespace Tcrm.QuantilePlot
open Tcrm.Evaluate

/-- How the plot can fail -/
inductive Err
  | tracks (e : Evaluate.Err)
  | valueError
  deriving DecidableEq, Repr

/-- PlotInterface/figures.py L132-136 (`percentiles`): percentiles 1 to 100; `none` is nan (no data) -/
def percentiles (data : List ℚ) : List (Option ℚ) := (List.range 100).map fun q : Nat => percentile data ((q : ℚ) + 1)

/-- PlotInterface/figures.py L140-143: the `n`-th of the 1000 samples, 100 values drawn from the data.  `draw n k` is the
position of the `k`-th value of sample `n`; the theorems range over every outcome of the random numbers.  (The default 0 is
never used when positions are within the data.) -/
def sample (data : List ℚ) (draw : Nat → Nat → Nat) (n : Nat) : List ℚ := (List.range 100).map fun k => data.getD (draw n k) 0

/-- PlotInterface/figures.py L145 (`dummy`), one row: percentile `per` of each of the 1000 samples (each sample has 100 values,
so none is left out by `filterMap`) -/
def samplePercentiles (data : List ℚ) (draw : Nat → Nat → Nat) (per : ℚ) : List ℚ :=
  (List.range 1000).filterMap fun n => percentile (sample data draw n) per

/-- PlotInterface/figures.py L138-148 (`percentilerange`): upper and lower values of percentiles 1 to 100;
`np.random.choice` of no data raises. -/
def percentileRange (data : List ℚ) (draw : Nat → Nat → Nat) : Except Err (List (Option ℚ) × List (Option ℚ)) :=
  if data = [] then .error .valueError
  else .ok ((List.range 100).map fun q : Nat => percentile (samplePercentiles data draw ((q : ℚ) + 1)) 95,
            (List.range 100).map fun q : Nat => percentile (samplePercentiles data draw ((q : ℚ) + 1)) 5)

/-- What is drawn: the points, and the lines right of (below) and left of (above) them -/
structure Plot where
  points : List (Option ℚ × Option ℚ)
  below : List (Option ℚ × Option ℚ)
  above : List (Option ℚ × Option ℚ)
  deriving DecidableEq, Repr

/-- PlotInterface/figures.py L171-185 (`subplot`): L174-178 the percentiles, L180 the points, L183-184 the lines.  Labels, the
diagonal and the limits of the axes are not modelled. -/
def subplot (xdata ydata : List ℚ) (dx dy : Nat → Nat → Nat) : Except Err Plot :=
  match percentileRange xdata dx with
  | .error e => .error e
  | .ok (xupper, xlower) =>
    match percentileRange ydata dy with
    | .error e => .error e
    | .ok (yupper, ylower) =>
      .ok ⟨(percentiles xdata).zip (percentiles ydata), xupper.zip ylower, xlower.zip yupper⟩

/-- Evaluate/pressureDistribution.py L305-313 (the sequential branch of `synthetic`): the lowest pressures of all track files one
after the other -/
def syntheticMinima (g : Limit) : List (List Track) → Except Evaluate.Err (List ℚ)
  | [] => .ok []
  | ts :: rest =>
    match minPressures g ts with
    | .error e => .error e
    | .ok vs =>
      match syntheticMinima g rest with
      | .error e => .error e
      | .ok ws => .ok (vs ++ ws)

/-- Evaluate/pressureDistribution.py L451-471 (`plotMinPressureQuantiles`), from observed tracks (L231, `historic`) and those in
each track file; `x.compress(x > 0)` leaves out the zeros of tracks that start elsewhere. -/
def plotQuantiles (g : Limit) (observed : List Track) (simulated : List (List Track)) (dx dy : Nat → Nat → Nat) :
    Except Err Plot :=
  match minPressures g observed with
  | .error e => .error (.tracks e)
  | .ok x =>
    match syntheticMinima g simulated with
    | .error e => .error (.tracks e)
    | .ok y => subplot (x.filter fun v => decide (0 < v)) (y.filter fun v => decide (0 < v)) dx dy

end Tcrm.QuantilePlot
