import Mathlib.Data.Rat.Floor
import Mathlib.Algebra.Order.Round
/-!
Processing of historical tracks: DataProcess/CalcTrackDomain.py, DataProcess/CalcFrequency.py, parts of
DataProcess/DataProcess.py and Utilities/loadData.py. Numbers are exact; the two-step widening of the
limits in `stats.between` (by rounding errors) is left out here, see Model/Fuzzy.lean.
-/
namespace Tcrm.DataProc

inductive Err where
  | valueError
  | keyError
  | indexError
  deriving DecidableEq

/-- A domain, `{'xMin', 'xMax', 'yMin', 'yMax'}`. -/
structure Box where
  xMin : ℚ
  xMax : ℚ
  yMin : ℚ
  yMax : ℚ
  deriving DecidableEq

/-- An observation: `index` is 1 at the start of a track. -/
structure Obs where
  index : ℤ
  lon : ℚ
  lat : ℚ
  deriving DecidableEq

/-! ### CalcTrackDomain -/

/-- Initial track limits, DataProcess/CalcTrackDomain.py L66-67 and L72-73 -/
def noLimits : Box := ⟨9999, -9999, 9999, -9999⟩

/-- DataProcess/CalcTrackDomain.py L75-78 -/
def extendPoint (b : Box) (o : Obs) : Box := ⟨min b.xMin o.lon, max b.xMax o.lon, min b.yMin o.lat, max b.yMax o.lat⟩

/-- DataProcess/CalcTrackDomain.py L80-81 -/
def isIn (wf : Box) (o : Obs) : Bool :=
  decide (wf.xMin ≤ o.lon ∧ o.lon ≤ wf.xMax) && decide (wf.yMin ≤ o.lat ∧ o.lat ≤ wf.yMax)

/-- DataProcess/CalcTrackDomain.py L83-90 -/
def extendBox (b l : Box) : Box := ⟨min b.xMin l.xMin, max b.xMax l.xMax, min b.yMin l.yMin, max b.yMax l.yMax⟩

/-- DataProcess/CalcTrackDomain.py L92-96 -/
def roundBox (b : Box) : Box := ⟨⌊b.xMin⌋, ⌈b.xMax⌉, ⌊b.yMin⌋, ⌈b.yMax⌉⟩

/-- The loop body, DataProcess/CalcTrackDomain.py L69-96: state is the domain and the limits of the
current track. -/
def domainStep (wf : Box) (s : Box × Box) (o : Obs) : Box × Box :=
  let limits := extendPoint (if o.index = 1 then noLimits else s.2) o
  (roundBox (if isIn wf o then extendBox s.1 limits else s.1), limits)

/-- DataProcess/CalcTrackDomain.py L51-98 (`calc`) -/
def trackDomain (wf : Box) (obs : List Obs) : Box := (obs.foldl (domainStep wf) (wf, noLimits)).1

/-! ### CalcFrequency -/

/-- The origin of a track: year (or season) and position. -/
structure Origin where
  year : ℕ
  lon : ℚ
  lat : ℚ
  deriving DecidableEq

/-- DataProcess/CalcFrequency.py L87-91, one row of the comparison -/
def startsIn (b : Box) (o : Origin) : Bool :=
  decide (o.lon > b.xMin) && decide (o.lon < b.xMax) && decide (o.lat > b.yMin) && decide (o.lat < b.yMax)

/-- `np.round`, half to even. -/
def npRound (x : ℚ) : ℤ :=
  if x - ⌊x⌋ < 1 / 2 then ⌊x⌋ else if x - ⌊x⌋ > 1 / 2 then ⌊x⌋ + 1
  else if ⌊x⌋ % 2 = 0 then ⌊x⌋ else ⌊x⌋ + 1

/-- DataProcess/CalcFrequency.py L59-102 (`calc`), years from 0. `none` is NaN (mean of nothing). There
is room for the years up to 2999. A file of positions with no row or with one row is read as a
one-dimensional array, which `[:, 0]` (L77) refuses. -/
def annualFrequency (b : Box) (origins : List Origin) : Except Err (Option ℚ) :=
  match origins with
  | [] => .error .indexError
  | [_] => .error .indexError
  | o :: o' :: rest =>
    let os := o' :: rest
    let lo := os.foldl (fun m x => min m x.year) o.year
    let hi := os.foldl (fun m x => max m x.year) o.year
    if lo < hi ∧ hi > 3000 then .error .indexError
    else
      let counts := (List.range' lo (hi - lo)).map fun y =>
        ((o :: os).filter fun x => decide (x.year = y) && startsIn b x).length
      if counts = [] then .ok none
      else .ok (some ((npRound (((counts.sum : ℕ) : ℚ) / counts.length * 100) : ℚ) / 100))

/-! ### extractTracks -/

/-- DataProcess/DataProcess.py L116-154 (`extractTracks`): state is the list of indices (in order), the
flag and the current index. -/
def extractStep (b : Box) (s : List ℕ × Bool × ℕ) (o : Obs) : List ℕ × Bool × ℕ :=
  if o.index = 1 then
    if isIn b o then (s.1 ++ [s.2.2], true, s.2.2 + 1) else (s.1, false, s.2.2 + 1)
  else if s.2.1 then (s.1 ++ [s.2.2], true, s.2.2 + 1) else (s.1, false, s.2.2 + 1)

def extractTracks (b : Box) (obs : List Obs) : List ℕ := (obs.foldl (extractStep b) ([], false, 0)).1

/-- `array[indices]` -/
def takeRows {α : Type} (rows : List α) (idx : List ℕ) : List α := idx.filterMap (rows[·]?)

/-! ### getInitialPositions and loadTrackFile -/

/-- The columns of an input file that matter for the start markers, if the file has them (and they can be
converted to integers). -/
structure Columns (S : Type) where
  index : Option (List ℤ)
  serial : Option (List S)
  num : Option (List ℤ)
  season : Option (List ℤ)

/-- The loop of Utilities/loadData.py L325-328: 1, except where the entry equals the one before. -/
def markChanges {α : Type} [DecidableEq α] : List α → List ℤ
  | [] => []
  | x :: l => 1 :: ((x :: l).zip l).map fun p => if p.1 = p.2 then 0 else 1

/-- Utilities/loadData.py L286-365 (`getInitialPositions`) -/
def initialPositions {S : Type} [DecidableEq S] (c : Columns S) : Except Err (List ℤ) :=
  match c.index with
  | some l => .ok l
  | none =>
    match c.serial with
    | some l => .ok (markChanges l)
    | none =>
      match c.num with
      | none => .error .keyError
      | some num =>
        match c.season with
        | some season => .ok (markChanges (season.zip num))
        | none => .ok (markChanges num)

/-- Splitting at large jumps: DataProcess/DataProcess.py L248-258 (`maxLon` = 15) and
Utilities/loadData.py L867-877 (`maxLon` = 10). -/
def splitJumps (maxLon : ℚ) : List Obs → List Obs
  | [] => []
  | o :: l => o :: ((o :: l).zip l).map fun p =>
      if p.2.lon - p.1.lon > maxLon ∨ p.2.lat - p.1.lat > 5 then { p.2 with index := 1 } else p.2

/-- `np.mod(lon, 360)` applied to the input, DataProcess/DataProcess.py L204 and Utilities/loadData.py
L866. -/
def mod360 (x : ℚ) : ℚ := x - 360 * ⌊x / 360⌋

/-- `np.cumsum(indicator)`, from `s` -/
def cumsum (s : ℤ) : List ℤ → List ℤ
  | [] => []
  | x :: l => (s + x) :: cumsum (s + x) l

/-- Utilities/loadData.py L942-966: the tracks of the rows with the given markers. -/
def splitTracks {α : Type} (markers : List ℤ) (rows : List α) : Except Err (List (List α)) :=
  match cumsum 0 markers with
  | [] => .error .valueError
  | t :: ts =>
    let n := ts.foldl max t
    .ok ((List.range n.toNat).map fun i =>
      (((t :: ts).zip rows).filter fun p => p.1 = ((i + 1 : ℕ) : ℤ)).map (·.2))

end Tcrm.DataProc
