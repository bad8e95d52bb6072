import Verif.Model.Cdf
import Verif.Model.Extract
import Mathlib.Data.Rat.Floor

/-!
Model of the distributions of cyclone parameters by kernel density estimation
(StatInterface/KDEParameters.py, GenerateDistributions.py, circularKDE.py) and of their use.
-/

namespace Tcrm.Kde

open Tcrm.Cdf (Err)

/-- `np.arange(a, b, d)` for `d > 0` -/
def arange (a b d : ℚ) : List ℚ := (List.range ⌈(b - a) / d⌉.toNat).map fun (i : ℕ) => a + i * d

/-- The arguments `angular` and `periodic` of `generateKDE`.  (Both together do not occur.) -/
inductive Mode where
  | plain
  | angular
  | periodic (p : ℚ)
  deriving DecidableEq

/-- The estimator of the library statsmodels, fitted to a data set, at a point: an arbitrary
function here, see `kernelDensity`.  KDEParameters.py L240-252: values that are not a number are
replaced by zero; the bandwidth is chosen by the library, the one computed in L152 is only checked
(L236). -/
abbrev Density := List ℚ → ℚ → ℚ

/-- `stats.bandwidth(data) <= 0` (Utilities/stats.py L316-337): 1.06 times the standard deviation
times a power of the number of data, which is zero if all are equal.  Arithmetic is exact. -/
def noSpread : List ℚ → Bool
  | [] => false
  | x :: l => l.all (· = x)

/-- KDEParameters.py L151-162, L230-252: the density on the grid, and its cumulative distribution.
`slice` is what is kept of the grid and the density, and the factor of the density. An empty data
set cannot be fitted. -/
def fit (dens : Density) (data grid : List ℚ) (sub : List ℚ → List ℚ) (factor : ℚ) :
    Except Err (List (ℚ × ℚ × ℚ)) :=
  if grid.length < 2 then .error .valueError
  else if data = [] then .error .valueError
  else if noSpread data then .error .valueError
  else
    let pdf := (sub (grid.map (dens data))).map (factor * ·)
    match Cdf.cdf (sub grid) pdf with
    | .error e => .error e
    | .ok cy => .ok ((sub grid).zip (pdf.zip cy))

/-- StatInterface/KDEParameters.py L71-162 (`generateKDE`, for an array, values returned). -/
def generateKDE (dens : Density) (mode : Mode) (missing step : ℚ) (parameters : List ℚ) :
    Except Err (List (ℚ × ℚ × ℚ)) :=
  if parameters.length ≤ 1 then .error .indexError
  else
    let ps := Extract.statRemoveNum missing parameters
    match mode with
    | .angular => fit dens ps (arange 0 360 step) id 1
    | .plain =>
      match ps.min?, ps.max? with
      | some lo, some hi => fit dens ps (arange lo hi step) id 1
      | _, _ => .error .valueError
    | .periodic p =>
      let x := arange 1 (p + 1) step
      let grid := x.map (· - p) ++ x ++ x.map (· + p)
      let data := ps.map (· - p) ++ ps ++ ps.map (· + p)
      let idx := ⌊p / step⌋.toNat
      fit dens data grid (fun l => (l.drop idx).take idx) 3

/-- StatInterface/GenerateDistributions.py L164-203 (`allDistributions`): for every cell its number
with the values and the cumulative distribution. `extract` is `extractParameter` (C11). The first
exception ends it. -/
def allDistributions (extract : ℕ → Except Err (List ℚ))
    (kde : List ℚ → Except Err (List (ℚ × ℚ × ℚ))) : List ℕ → Except Err (List (ℕ × ℚ × ℚ))
  | [] => .ok []
  | c :: cs =>
    match extract c with
    | .error e => .error e
    | .ok ps =>
      match kde ps with
      | .error e => .error e
      | .ok t =>
        match allDistributions extract kde cs with
        | .error e => .error e
        | .ok r => .ok (t.map (fun row => (c, row.1, row.2.2)) ++ r)

/-- TrackGenerator/TrackGenerator.py L584-585, L593-594, L603-604: the rows of a cell. -/
def tableOf (rows : List (ℕ × ℚ × ℚ)) (c : ℕ) : List (ℚ × ℚ) :=
  (rows.filter fun r => r.1 = c).map (·.2)

/-- Contract of the estimator of statsmodels: the mean of kernels of shape `k` and width `h` (which
depends on the data) about the data. -/
def kernelDensity (k : ℚ → ℚ) (h : List ℚ → ℚ) : Density := fun data x =>
  (data.map fun d => k ((x - d) / h data)).sum / (data.length * h data)

/-- StatInterface/KDEParameters.py L171-223 (`generateGenesisDateCDF`): the data of the file are
loaded (L191, L194) but the density is fitted to `self.parameters` (L199), the data of an earlier
call of `generateKDE`; `none` if there was none (AttributeError). -/
def genesisDateCDF (dens : Density) (before : Option (List ℚ)) (_file : List ℚ) :
    Option (Except Err (List (ℚ × ℚ × ℚ))) :=
  before.map fun data =>
    let days : List ℚ := (List.range 365).map fun (i : ℕ) => 1 + (i : ℚ)
    let pdf := days.map fun d => 3 * dens data d
    match Cdf.cdf days pdf with
    | .error e => .error e
    | .ok cy => .ok (days.zip (pdf.zip cy))

/-- StatInterface/circularKDE.py L38-49: `pdf` is created by `np.empty`, so that `garbage` is
arbitrary; `kernel d x` is the normalised kernel about `d` at grid point `x`. (The module cannot be
imported as part of the package, L21.) -/
def circularKDE (kernel : ℚ → ℚ → ℚ) (garbage : List ℚ) (data grid : List ℚ) : List ℚ :=
  (grid.zip garbage).map fun p => (p.2 + (data.map fun d => kernel d p.1).sum) / grid.length

/-- `np.arange(a, b, -d)` for `d > 0` -/
def arangeDown (a b d : ℚ) : List ℚ := (List.range ⌈(a - b) / d⌉.toNat).map fun (i : ℕ) => a - i * d

/-- StatInterface/KDEOrigin.py L73 -/
def originX (gl : Cells.Limit) (step : ℚ) : List ℚ := arange gl.xMin gl.xMax step

/-- StatInterface/KDEOrigin.py L74 -/
def originY (gl : Cells.Limit) (step : ℚ) : List ℚ := arangeDown gl.yMax gl.yMin step

/-- StatInterface/KDEOrigin.py L95-100: the points inside the domain. -/
def originPoints (gl : Cells.Limit) (pts : List (ℚ × ℚ)) : List (ℚ × ℚ) :=
  pts.filter fun p => decide (p.1 ≥ gl.xMin) && decide (p.1 ≤ gl.xMax) && decide (p.2 ≥ gl.yMin) &&
    decide (p.2 ≤ gl.yMax)

/-- StatInterface/KDEOrigin.py L122-126, L152-166 (`generateKDE`): the density (of the library
statsmodels, an arbitrary function here) at the points of `np.meshgrid`, row by row, given the shape
of the grid again, and saved as variable of latitude and longitude; Utilities/grid.py L105-137
(`grdReadFromNetcdf`) reads the same array back.  The library takes the array of points with its
two rows as a list of points, unless there are just two of them. -/
def originPdf (dens : List (ℚ × ℚ) → ℚ × ℚ → ℚ) (gl : Cells.Limit) (step : ℚ)
    (pts : List (ℚ × ℚ)) : Cdf.Grid ℚ :=
  let x := originX gl step
  let y := originY gl step
  let flat := (y.flatMap fun b => x.map fun a => (a, b)).map (dens (originPoints gl pts))
  { rows := y.length
    cols := x.length
    val := fun j i => flat.getD (j * x.length + i) 0 }

/-- TrackGenerator/TrackGenerator.py L309-310, L566-568: the sampler of origins of a calibrated
model. -/
def drawOrigin (dens : List (ℚ × ℚ) → ℚ × ℚ → ℚ) (gl : Cells.Limit) (step : ℚ)
    (pts : List (ℚ × ℚ)) (q1 q2 : ℚ) : Except Err (ℚ × ℚ) :=
  Cdf.sampleOrigin (originX gl step) (originY gl step) (originPdf dens gl step pts) q1 q2

end Tcrm.Kde
