import Verif.Model.Evd
import Verif.Model.GustFiles
import Verif.Model.HazardOutput
/-!
The hazard stage as a whole: which winds are fitted at a grid point by which method, and the arrays
that are saved (hazard/__init__.py).  Single-precision storage of the arrays is not modelled.
-/
namespace Tcrm.HazardRun

open Tcrm.Evd

/-- The library functions used: `scoreatpercentile`, `genpareto.fit` (as in `Evd.gpdfit`) and
`scipy.optimize.curve_fit` for the function `a - b * x ^ c` with the given start value, `none` if it
raises. -/
structure Lib where
  percentile : List ℝ → ℝ
  pareto : List ℝ → Option (ℝ × ℝ)
  curve : List (ℝ × ℝ) → ℝ → Option (ℝ × ℝ × ℝ)

/-- hazard/evd.py L334-394 (`powerfit`): the days with winds above the mean of the positive ones, with
their empirical intervals, are handed to `curve_fit`. (If no wind is positive the mean is NaN and no
day is selected; the quotient by zero is 0 here, with the same effect. `minrecords` is not used.) -/
noncomputable def powerfit (curve : List (ℝ × ℝ) → ℝ → Option (ℝ × ℝ × ℝ)) (data intervals : List ℝ)
    (numsim : ℕ) : Except Err Fit :=
  let nobs : ℝ := 365.25 * numsim
  match fillDays (data.mergeSort fun a b => decide (a ≤ b)) ⌊nobs⌋₊ with
  | .error e => .error e
  | .ok wspd =>
    let pos := wspd.filter (· > 0)
    let mean := pos.sum / pos.length
    let pts := ((wspd.zipIdx).filter fun p => p.1 > mean).map fun p => (emprp nobs (p.2 + 1), p.1)
    match curve pts (GustFiles.maxList 0 data) with
    | none => .ok (.missing intervals.length)
    | some (a, b, c) => .ok ⟨intervals.map fun t => some (a - b * t ^ c), some a, some b, some c⟩

/-- The settings of the stage (hazard/__init__.py L991-1001). -/
structure Settings where
  evd : String
  years : List ℝ
  numSim : ℕ
  minRecords : ℕ
  yrsPerSim : ℝ

/-- The cell with nothing positive: the arrays keep their zeros (hazard/__init__.py L607-614,
L658-665, L712-719, L769-776). -/
noncomputable def zeroFit (k : ℕ) : Fit := ⟨List.replicate k (some 0), some 0, some 0, some 0⟩

/-- hazard/__init__.py L711-738 (`calculateGPD`), L657-679 (`calculateEMP`) and L768-794
(`calculatePower`) at one cell: `fit` is applied to the sorted record if some value is positive. The
maximum of an empty record raises ValueError. -/
noncomputable def eventCell (fit : List ℝ → Except Err Fit) (k : ℕ) (record : List ℝ) :
    Except Err Fit :=
  if record = [] then .error .valueError
  else if ∃ x ∈ record, x > 0 then fit (record.mergeSort fun a b => decide (a ≤ b))
  else .ok (zeroFit k)

/-- hazard/__init__.py L666-667: the levels of `empfit`; its parameters are missing. -/
noncomputable def empFit (data intervals : List ℝ) (numsim : ℕ) : Except Err Fit :=
  match empfit data intervals numsim with
  | .error e => .error e
  | .ok ws => .ok ⟨ws.map some, none, none, none⟩

/-- Annual maxima of a cell of a tile (hazard/__init__.py L865-894); `none` if a file has no wind. -/
noncomputable def annualRecord (dir : List (GustFiles.Name × Option (ℕ → ℕ → ℝ))) (numSim : ℕ)
    (t : GustFiles.Tile) (y x : ℕ) : Option (List ℝ) :=
  (List.range numSim).mapM fun year => (GustFiles.aggregate dir t year).map fun v => v y x

/-- The winds of all events at a cell of a tile (hazard/__init__.py L896-920). -/
noncomputable def eventRecord (dir : List (GustFiles.Name × Option (ℕ → ℕ → ℝ)))
    (t : GustFiles.Tile) (y x : ℕ) : Option (List ℝ) :=
  (GustFiles.loadFiles dir t).map fun fields => fields.map fun v => v y x

/-- hazard/__init__.py L264-328 (`calculateHazard`, without confidence intervals, see C61) at one cell
of a tile. `KeyError` of a file without wind is `typeError` here. -/
noncomputable def cell (lib : Lib) (S : Settings)
    (dir : List (GustFiles.Name × Option (ℕ → ℕ → ℝ))) (t : GustFiles.Tile) (y x : ℕ) :
    Except Err Fit :=
  if S.evd = "GPD" then
    match eventRecord dir t y x with
    | none => .error .typeError
    | some r => eventCell (fun d => gpdfit lib.pareto (lib.percentile d) d S.years S.numSim S.minRecords)
        S.years.length r
  else if S.evd = "GEV" then
    match annualRecord dir S.numSim t y x with
    | none => .error .typeError
    | some r => gevCell r S.years S.minRecords S.yrsPerSim
  else if S.evd = "power" then
    match eventRecord dir t y x with
    | none => .error .typeError
    | some r => eventCell (fun d => powerfit lib.curve d S.years S.numSim) S.years.length r
  else if S.evd = "emp" then
    match eventRecord dir t y x with
    | none => .error .typeError
    | some r => eventCell (fun d => empFit d S.years S.numSim) S.years.length r
  else .error .valueError

/-- A tile as handed out (C01), with indices from zero. -/
def natTile (l : Tiles.Limits) : GustFiles.Tile := ⟨l.x1.toNat, l.x2.toNat, l.y1.toNat, l.y2.toNat⟩

/-- hazard/__init__.py L264-328: the arrays of a tile, by row and column. An exception at any cell ends
the process; here it is the value of that cell. -/
noncomputable def tile (lib : Lib) (S : Settings)
    (dir : List (GustFiles.Name × Option (ℕ → ℕ → ℝ))) (l : Tiles.Limits) : Int → Int → Except Err Fit :=
  fun y x => cell lib S dir (natTile l) y.toNat x.toNat

/-- hazard/__init__.py L181-194 (`getDomainExtent`): the part of an axis that is saved. -/
def extent {A : Type} (axis : List A) (lo hi : Int) : List A :=
  (axis.take (hi + 1).toNat).drop lo.toNat

end Tcrm.HazardRun
