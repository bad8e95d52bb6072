import Mathlib.Order.Defs.LinearOrder
import Mathlib.Algebra.Group.Defs
import Mathlib.Data.List.Basic
/-!
Wind-field files: names, selection by year, annual maxima, and the restartable loop writing them.
-/
namespace Tcrm.GustFiles

/-- A file name (without directory). -/
abbrev Name := List Char

/-- Python `'{0:0wd}'.format(n)` and `'%0wd' % n` for `n ≥ 0`: decimal digits, padded with zeros
to at least `w` characters. -/
def pad (w n : ℕ) : Name :=
  List.replicate (w - (Nat.toDigits 10 n).length) '0' ++ Nat.toDigits 10 n

/-- wind/__init__.py L391-397 (`gustFilename`): `'gust.{0:03d}-{1:05d}.nc'.format(*trackId)`
without the directory. -/
def gustName (id : ℕ × ℕ) : Name :=
  "gust.".toList ++ pad 3 id.1 ++ "-".toList ++ pad 5 id.2 ++ ".nc".toList

/-- wind/__init__.py L466-469: name of the optional time-series file of a track. -/
def evolutionName (id : ℕ × ℕ) : Name :=
  "evolution.".toList ++ pad 3 id.1 ++ "-".toList ++ pad 5 id.2 ++ ".nc".toList

/-- A shell pattern of literal characters and `*` (the only special character used). -/
inductive Pat where
  | lit (c : Char)
  | star
  deriving DecidableEq

/-- Contract of `fnmatch` on such patterns, as used by `glob.glob`. -/
def fnmatch : List Pat → Name → Bool
  | [], s => s.isEmpty
  | .lit _ :: _, [] => false
  | .lit c :: p, d :: s => c == d && fnmatch p s
  | .star :: p, s => s.tails.any fun r => fnmatch p r

/-- hazard/__init__.py L881: `"gust.*-%05d.nc" % year` -/
def yearPattern (year : ℕ) : List Pat :=
  "gust.".toList.map .lit ++ [.star] ++ ("-".toList ++ pad 5 year ++ ".nc".toList).map .lit

/-- Tile limits (xmin, xmax, ymin, ymax). -/
structure Tile where
  xmin : ℕ
  xmax : ℕ
  ymin : ℕ
  ymax : ℕ

/-- hazard/__init__.py L922-950 (`loadFile`): rows `ymin:ymax`, columns `xmin:xmax` of `vmax`. A file
without the variable raises KeyError, here `none`. The tile is inside the array. -/
def loadFile {K : Type} (vmax : Option (ℕ → ℕ → K)) (t : Tile) : Option (ℕ → ℕ → K) :=
  vmax.map fun v y x => v (t.ymin + y) (t.xmin + x)

/-- Maximum of a list, `np.max` along the first axis; the list is not empty where this is used. -/
def maxList {K : Type} [LinearOrder K] (d : K) : List K → K
  | [] => d
  | [x] => x
  | x :: l => max x (maxList d l)

/-- hazard/__init__.py L865-894 (`aggregateWindFields`): the entry for a year and a cell of the
tile. `dir` is the directory listing in the order returned by `glob`; each file has an optional
variable `vmax`. -/
def aggregate {K : Type} [LinearOrder K] [Zero K] (dir : List (Name × Option (ℕ → ℕ → K))) (t : Tile)
    (year : ℕ) : Option (ℕ → ℕ → K) :=
  match (dir.filter fun f => fnmatch (yearPattern year) f.1).mapM fun f => loadFile f.2 t with
  | none => none
  | some [] => some fun _ _ => 0
  | some fields => some fun y x => maxList 0 (fields.map fun v => v y x)

/-- hazard/__init__.py L896-920 (`loadFilesFromPath`): all regular files of the directory, sorted
by name (they share the directory, so sorting paths is sorting names). `dir` is the listing of regular
files. -/
def loadFiles {K : Type} (dir : List (Name × Option (ℕ → ℕ → K))) (t : Tile) :
    Option (List (ℕ → ℕ → K)) :=
  (dir.mergeSort fun a b => decide (a.1 ≤ b.1)).mapM fun f => loadFile f.2 t

/-! ### The restartable loop -/

/-- Variables of a gust file, in the order in which they are written (wind/__init__.py L606-705,
Utilities/nctools.py L341-378). -/
inductive Var where
  | lat | lon | vmax | ua | va | slp | crs
  deriving DecidableEq

/-- A netCDF file on disk: the variables defined so far with their data (`none`: fill values), and
whether it has been closed. -/
structure File (D : Type) where
  vars : List (Var × Option D)
  closed : Bool
  deriving DecidableEq

/-- What the loop changes on disk: the gust files and the local wind field file, whose name does not depend on the track
(ProcessMultipliers/processMultipliers.py L909; other intermediate rasters and the optional
`evolution` files are left out). -/
structure Disk (D X : Type) where
  files : Name → Option (File D)
  localWind : Option X

/-- What the wind-field stage depends on. `result lim t v` is variable `v` of the wind field of track
`t` on the grid `lim`, `limitOf` is `setGridLimit`, `readable` says whether the netCDF library can
open a file left by an interrupted write, `localField` is the local wind field written
if multipliers are configured. -/
structure Stage (T L D X : Type) where
  id : T → ℕ × ℕ
  result : L → T → Var → D
  limitOf : T → L
  readable : File D → Bool
  multipliers : Bool
  localField : L → T → X

variable {T L D X : Type}

/-- wind/__init__.py L399-414 (`gustFileComplete`) -/
def complete (S : Stage T L D X) (f : Option (File D)) : Bool :=
  match f with
  | none => false
  | some f =>
    S.readable f &&
      [Var.lat, .lon, .vmax, .ua, .va, .slp].all fun v => f.vars.any fun p => p.1 == v

/-- Replace a file. -/
def Disk.put (d : Disk D X) (n : Name) (f : File D) : Disk D X :=
  { d with files := fun m => if m = n then some f else d.files m }

/-- Successive states of a file during `ncSaveGrid` (Utilities/nctools.py L333-395): created
(emptied), then for each variable defined and filled (`crs` has no values), then closed. `data` are
the values to write. -/
def saveStates (data : Var → D) : List (File D) :=
  let a : List (Var × Option D) := [(.lat, some (data .lat))]
  let b := a ++ [(.lon, some (data .lon))]
  let c := b ++ [(.vmax, some (data .vmax))]
  let d := c ++ [(.ua, some (data .ua))]
  let e := d ++ [(.va, some (data .va))]
  let f := e ++ [(.slp, some (data .slp))]
  let g := f ++ [(.crs, none)]
  [⟨[], false⟩, ⟨[(.lat, none)], false⟩, ⟨a, false⟩, ⟨a ++ [(.lon, none)], false⟩, ⟨b, false⟩,
   ⟨b ++ [(.vmax, none)], false⟩, ⟨c, false⟩, ⟨c ++ [(.ua, none)], false⟩, ⟨d, false⟩,
   ⟨d ++ [(.va, none)], false⟩, ⟨e, false⟩, ⟨e ++ [(.slp, none)], false⟩, ⟨f, false⟩, ⟨g, false⟩, ⟨g, true⟩]

/-- The states the disk goes through while one track is processed, wind/__init__.py L531-561
(`dumpGustsFromTracks`), starting with the given one, and the grid limit afterwards
(L450-451: set from the first track that is computed if it is not configured). -/
def processTrack (S : Stage T L D X) (t : T) (lim : Option L) (d : Disk D X) :
    List (Disk D X) × Option L :=
  let name := gustName (S.id t)
  if complete S (d.files name) then ([d], lim)
  else
    let l := lim.getD (S.limitOf t)
    let written := (saveStates (S.result l t)).map fun f => d.put name f
    let closed := written.getLast?.getD d
    let extra := if S.multipliers then [{ closed with localWind := some (S.localField l t) }] else []
    (d :: written ++ extra, some l)

/-- All states the disk goes through during a run over a list of tracks. -/
def runStates (S : Stage T L D X) : List T → Option L → Disk D X → List (Disk D X)
  | [], _, d => [d]
  | t :: ts, lim, d =>
    let r := processTrack S t lim d
    r.1 ++ runStates S ts r.2 (r.1.getLast?.getD d)

/-- The disk after an uninterrupted run. -/
def runFinal (S : Stage T L D X) : List T → Option L → Disk D X → Disk D X
  | [], _, d => d
  | t :: ts, lim, d =>
    let r := processTrack S t lim d
    runFinal S ts r.2 (r.1.getLast?.getD d)

end Tcrm.GustFiles
