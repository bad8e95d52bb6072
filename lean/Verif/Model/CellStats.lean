import Verif.Model.Extract
import Verif.Model.Acf
import Verif.Model.Circular
/-!
Statistics of every cell: computed from the observations, written to a file and read by the track generator
(StatInterface/generateStats.py, StatInterface/StatInterface.py, TrackGenerator/TrackGenerator.py).  Observations
are rational numbers, statistics real numbers; the file keeps numbers exactly (the program writes single precision).
-/
namespace Tcrm.CellStats
open Tcrm.Extract Tcrm.Cells

/-- The results of `calculate` -/
structure Five where
  mu : ℝ
  sig : ℝ
  alpha : ℝ
  phi : ℝ
  mn : ℝ

/-- `np.mean` -/
noncomputable def mean (p : List ℝ) : ℝ := p.sum / p.length

/-- `np.std` -/
noncomputable def std (p : List ℝ) : ℝ := Real.sqrt (mean (p.map fun x => (x - mean p) ^ 2))

/-- `np.radians` -/
noncomputable def radians (x : ℝ) : ℝ := x * Real.pi / 180

/-- StatInterface/generateStats.py L237-249 (`calculate` after the choice of the sample); `none` for an empty sample
(`np.correlate` raises). -/
noncomputable def calculate (angular : Bool) (p : List ℚ) : Option Five :=
  let x := p.map fun q : ℚ => (q : ℝ)
  match Acf.coefficients x, x.min? with
  | some (alpha, phi), some mn =>
    some
      { mu := if angular then Circular.circmean (x.map radians) (2 * Real.pi) 0 else mean x
        sig := if angular then Circular.circstd (x.map radians) (2 * Real.pi) 0 else std x
        alpha := alpha
        phi := phi
        mn := mn }
  | _, _ => none

/-- Observations and settings of `GenerateStats` -/
structure Job where
  obs : List Obs
  missing : ℚ
  minSample : ℤ
  gl : Limit
  gs : Space
  inc : Space
  angular : Bool

/-- StatInterface/generateStats.py L220-249 (`calculate`) for a cell; `none` if it raises. -/
noncomputable def ofCell (J : Job) (fuel : ℕ) (c : ℕ) (onLand : Bool) : Option Five :=
  match extractStats J.obs J.missing J.minSample J.gl J.gs J.inc fuel c onLand with
  | .ok _ p => calculate J.angular p
  | _ => none

/-- The attributes of `coeffs`, by name. -/
abbrev Attrs := String → List ℝ

/-- `setattr` -/
def setattr (a : Attrs) (name : String) (l : List ℝ) : Attrs := fun n => if n = name then l else a n

/-- StatInterface/generateStats.py L57-67 (`parameters`) and L148-169 (`calculateStatistics`), with `maxCell` of L124. -/
noncomputable def calculateStatistics (J : Job) (fuel : ℕ) : Option Attrs :=
  let n := (maxCellNum J.gl J.gs + 1).toNat
  match (List.range n).mapM fun c => ofCell J fuel c false, (List.range n).mapM fun c => ofCell J fuel c true with
  | some sea, some land =>
    some fun name =>
      if name = "mu" then sea.map (·.mu)
      else if name = "sig" then sea.map (·.sig)
      else if name = "alpha" then sea.map (·.alpha)
      else if name = "phi" then sea.map (·.phi)
      else if name = "min" then sea.map (·.mn)
      else if name = "lmu" then land.map (·.mu)
      else if name = "lsig" then land.map (·.sig)
      else if name = "lalpha" then land.map (·.alpha)
      else if name = "lphi" then land.map (·.phi)
      else if name = "lmin" then land.map (·.mn)
      else []
  | _, _ => none

/-- StatInterface/generateStats.py L181-193 (`plotStatistics`): the cell shown in each column of the histograms, which
have `maxCell` columns; cell `i` is written to column `i - 1`, and cell 0 to the last one (index −1). `none` if there
is no column (IndexError). -/
def plotColumns (maxCell : ℕ) : Option (List ℕ) :=
  if maxCell = 0 then none
  else some ((List.range (maxCell + 1)).foldl
    (fun cols i => cols.set (if i = 0 then maxCell - 1 else i - 1) i) (List.replicate maxCell 0))

/-- `reshape((ny, nx))`; `none` (ValueError) if the size is another one. -/
def reshape {α : Type} (ny nx : ℕ) (l : List α) : Option (List (List α)) :=
  if l.length = ny * nx then some ((List.range ny).map fun j => (l.drop (j * nx)).take nx) else none

/-- A statistics file: axes and variables. -/
structure File where
  lat : List ℚ
  lon : List ℚ
  vars : List (String × List (List ℝ))

/-- StatInterface/generateStats.py L401-483 (`save`). The variable `cell`, which nobody reads, is left out. -/
def save (gl : Limit) (gs : Space) (a : Attrs) : Option File :=
  let nx := arangeSize gl.xMin gl.xMax gs.x
  let ny := arangeSize gl.yMax gl.yMin (-gs.y)
  match (["mu", "alpha", "sig", "min", "lmu", "lalpha", "lsig", "lmin", "phi", "lphi"]).mapM fun v =>
      (reshape ny nx (a v)).map fun rows => (v, rows) with
  | none => none
  | some vars =>
    some ⟨(List.range ny).map fun j : ℕ => gl.yMax + j * (-gs.y), (List.range nx).map fun i : ℕ => gl.xMin + i * gs.x, vars⟩

/-- StatInterface/generateStats.py L385-398 (`load`). The axes become attributes `lat` and `lon`, which nobody reads;
they are left out. -/
def load (a : Attrs) (f : File) : Attrs := f.vars.foldl (fun a v => setattr a v.1 v.2.flatten) a

/-- StatInterface/StatInterface.py L203-279 (`calcCellStatistics`) for one variable: statistics, plot, file. -/
noncomputable def stage (J : Job) (fuel : ℕ) : Option File :=
  match calculateStatistics J fuel, plotColumns (maxCellNum J.gl J.gs).toNat with
  | some a, some _ => save J.gl J.gs a
  | _, _ => none

/-- StatInterface/generateStats.py L57-67: the coefficients before `load`. -/
def zeros (gl : Limit) (gs : Space) : Attrs := fun _ => List.replicate (maxCellNum gl gs + 1).toNat 0

/-- Coefficients of a step in a cell. -/
structure Coef where
  alpha : ℝ
  phi : ℝ
  mu : ℝ
  sigma : ℝ

/-- TrackGenerator/TrackGenerator.py L1088-1098, L1129-1138 and L1174-1183: the coefficients that a step in cell `c`
uses; `none` for an index out of range. -/
def coef (a : Attrs) (onLand : Bool) (c : ℕ) : Option Coef :=
  let name := fun n => if onLand then "l" ++ n else n
  match (a (name "alpha"))[c]?, (a (name "phi"))[c]?, (a (name "mu"))[c]?, (a (name "sig"))[c]? with
  | some al, some ph, some mu, some si => some ⟨al, ph, mu, si⟩
  | _, _, _, _ => none

/-- TrackGenerator/TrackGenerator.py L394-438 (`loadCellStatistics`) for one variable. -/
def loaded (gl : Limit) (gs : Space) (f : File) : Attrs := load (zeros gl gs) f

end Tcrm.CellStats
