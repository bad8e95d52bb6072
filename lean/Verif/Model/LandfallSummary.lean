import Verif.Model.Evaluate
/-!
Summary of landfall intensity over the simulations of a directory, Evaluate/landfallIntensity.py. Of the columns of the
summary, those for the number, the categories and the intensity are modelled; standard deviations and quantiles are not.
-/
namespace Tcrm.LandfallSummary
open Tcrm.Evaluate

inductive Err
  | ioError
  | valueError
  deriving DecidableEq, Repr

/-- Columns of the summary of a gate, Evaluate/landfallIntensity.py L227-234 -/
structure Summary where
  /-- `count_sum` -/
  total : Nat
  /-- `count_nanmean` -/
  rate : Option ℚ
  /-- `cat1_sum`, …, `cat5_sum` -/
  cats : List Nat
  /-- `meanlfintensity_nanmean` -/
  meanIntensity : Option ℚ
  /-- `minlfintensity_min` -/
  lowest : Option ℚ
  deriving DecidableEq, Repr

/-- The aggregates of a group, Evaluate/landfallIntensity.py L227-234: missing values are left out. -/
def summarise (rows : List GateRow) : Summary where
  total := (rows.map (·.count)).sum
  rate := mean (rows.map fun r => (r.count : ℚ))
  cats := [(rows.map (·.cat1)).sum, (rows.map (·.cat2)).sum, (rows.map (·.cat3)).sum, (rows.map (·.cat4)).sum,
    (rows.map (·.cat5)).sum]
  meanIntensity := mean (rows.filterMap (·.meanIntensity))
  lowest := minimum (rows.filterMap (·.minIntensity))

/-- The names of the directory that are read, Evaluate/landfallIntensity.py L203-205: no dot is required. -/
def trackFiles (dir : List (List Char × List Track)) : List (List Track) :=
  (dir.filter fun f => ['n', 'c'].isSuffixOf f.1).map (·.2)

/-- `groupby('gate')`, Evaluate/landfallIntensity.py L223-227: the rows of all simulations with number `k` in the column
`gate` of the shape file (`ids`) -/
def group (ids : List ℤ) (sims : List (List GateRow)) (k : ℤ) : List GateRow :=
  sims.flatMap fun rows => ((ids.zip rows).filter fun p => p.1 = k).map (·.2)

/-- The row of the summary with index `k`, if there is one -/
def lookup (ids : List ℤ) (sims : List (List GateRow)) (k : ℤ) : Option Summary :=
  if group ids sims k = [] then none else some (summarise (group ids sims k))

/-- Evaluate/landfallIntensity.py L197-245 (`loadLandfallRates`), with `readTracks` (L80-106) of every file: a file
without tracks leaves `pd.concat` nothing to concatenate (L105). `join` (L241) is by index: the gates are numbered in the
order of the shape file from 0, the summary by the column `gate`. -/
def loadLandfallRates (ids : List ℤ) (gates : List Gate) (dir : List (List Char × List Track)) :
    Except Err (List (Option Summary)) :=
  let files := trackFiles dir
  if files = [] then .error .ioError
  else if files.any (·.isEmpty) then .error .valueError
  else .ok ((List.range gates.length).map fun (i : Nat) =>
    lookup ids (files.map fun tracks => gates.map fun g => countCrossings g tracks) (i : ℤ))

end Tcrm.LandfallSummary
