import Verif.Model.Evaluate
import Verif.Model.NcGrid
/-!
The files saved by the evaluation: density.nc (Evaluate/trackDensity.py), genesis_density.nc (genesisDensity.py),
pressureDistribution.nc (pressureDistribution.py) and lonCrossings.nc (longitudeCrossing.py).  Arrays are those of
Verif.Model.NcGrid; an entry `none` is masked, and the library netCDF4 stores the missing value in its place.  Units,
long names and global attributes are left out, and so are the two lists of minimum pressures that
pressureDistribution.py writes as text afterwards.
-/
namespace Tcrm.EvalSave
open Tcrm.NcGrid Tcrm.Evaluate

/-- How `save` ends -/
inductive Outcome where
  | saved
  | skipped
  | attributeError
  | failed (e : NcGrid.Err)

/-- `np.transpose` of an array with two axes (others do not occur) -/
def transpose {α : Type} (a : Arr α) : Arr α :=
  match a.shape with
  | [r, c] => ⟨[c, r], (List.range c).flatMap fun i => (List.range r).filterMap fun j => a.data[j * c + i]?⟩
  | _ => a

/-- Masked entries are stored as the missing value. -/
def filled {K : Type} (nodata : K) (a : Arr (Option K)) : Arr K := ⟨a.shape, a.data.map (·.getD nodata)⟩

/-- A variable to be saved: name, attribute `percentile`, and its array, if it has been calculated -/
structure Entry (K : Type) where
  name : String
  percentile : Option ℕ
  values : Option (Arr (Option K))

variable {T K : Type}

/-- One dictionary of `variables`, all of type 'f' on the dimensions ('lat', 'lon').  Without the array,
AttributeError is raised (`none`). -/
def Entry.dict (ty : Types T) (nodata : K) (e : Entry K) : Option (VarSpec T K) :=
  e.values.map fun a =>
    ⟨some e.name, some ["lat", "lon"], some (some (filled nodata a)), some ty.f, some { percentile := e.percentile }, none⟩

/-- The dictionaries `dimensions` and `variables` are built first, then `ncSaveGrid` is called (with its default
missing value `nodata`): Evaluate/trackDensity.py L228-300, genesisDensity.py L325-396, pressureDistribution.py
L490-557, longitudeCrossing.py L288-450 -/
def saveAll (lib : Lib T K) (ty : Types T) (default nodata : K) (canOpen : Bool) (disk : Disk T K) (path : String)
    (lats lons : List K) (entries : List (Entry K)) : Disk T K × Outcome :=
  match entries.mapM (Entry.dict ty nodata) with
  | none => (disk, .attributeError)
  | some vars =>
    match ncSaveGrid lib default canOpen disk path
        [⟨some "lat", some lats, some ty.f, some {}⟩, ⟨some "lon", some lons, some ty.f, some {}⟩] vars nodata none true with
    | (disk', none) => (disk', .saved)
    | (disk', some e) => (disk', .failed e)

/-- The attributes of `TrackDensity` and `GenesisDensity`: the arrays exist once they are calculated; their first axis
is longitude. -/
structure Densities (K : Type) where
  lonRange : List K
  latRange : List K
  hist : Option (Arr (Option K))
  synMean : Option (Arr (Option K))
  synUpper : Option (Arr (Option K))
  synLower : Option (Arr (Option K))

/-- The four variables of a density file -/
def Densities.entries (d : Densities K) : List (Entry K) :=
  [⟨"hist_density", none, d.hist.map transpose⟩,
   ⟨"syn_density", none, d.synMean.map transpose⟩,
   ⟨"syn_density_upper", some 95, d.synUpper.map transpose⟩,
   ⟨"syn_density_lower", some 5, d.synLower.map transpose⟩]

/-- Evaluate/trackDensity.py L216-300 (`TrackDensity.save`) -/
def saveTrackDensity (lib : Lib T K) (ty : Types T) (default nodata : K) (canOpen : Bool) (disk : Disk T K)
    (path : String) (d : Densities K) : Disk T K × Outcome :=
  if d.hist.isNone then (disk, .skipped)
  else saveAll lib ty default nodata canOpen disk path d.latRange.dropLast d.lonRange.dropLast d.entries

/-- Evaluate/genesisDensity.py L312-396 (`GenesisDensity.save`) -/
def saveGenesis (lib : Lib T K) (ty : Types T) (default nodata : K) (canOpen : Bool) (disk : Disk T K)
    (path : String) (d : Densities K) : Disk T K × Outcome :=
  if d.hist.isNone then (disk, .skipped)
  else saveAll lib ty default nodata canOpen disk path d.latRange d.lonRange d.entries

/-- The attributes of `PressureDistribution` that are saved; the first axis is longitude. -/
structure Pressures (K : Type) where
  lonRange : List K
  latRange : List K
  histMean : Option (Arr (Option K))
  histMin : Option (Arr (Option K))
  synMean : Option (Arr (Option K))
  synMin : Option (Arr (Option K))

/-- Evaluate/pressureDistribution.py L473-557 (`PressureDistribution.save`) -/
def savePressure (lib : Lib T K) (ty : Types T) (default nodata : K) (canOpen : Bool) (disk : Disk T K)
    (path : String) (p : Pressures K) : Disk T K × Outcome :=
  if p.histMin.isNone then (disk, .skipped)
  else saveAll lib ty default nodata canOpen disk path p.latRange.dropLast p.lonRange.dropLast
    [⟨"hist_mean", none, p.histMean.map transpose⟩, ⟨"syn_mean", none, p.synMean.map transpose⟩,
     ⟨"hist_min", none, p.histMin.map transpose⟩, ⟨"syn_min", none, p.synMin.map transpose⟩]

/-- The attributes of `LongitudeCrossing`: three arrays for all crossings, those to the west and those to the east.
The first axis is latitude. -/
structure Crossings (K : Type) where
  gateLons : List K
  gateLats : List K
  hist : Option (Arr (Option K))
  histEW : Option (Arr (Option K))
  histWE : Option (Arr (Option K))
  synMean : Option (Arr (Option K))
  synEW : Option (Arr (Option K))
  synWE : Option (Arr (Option K))
  synUpper : Option (Arr (Option K))
  synEWUpper : Option (Arr (Option K))
  synWEUpper : Option (Arr (Option K))
  synLower : Option (Arr (Option K))
  synEWLower : Option (Arr (Option K))
  synWELower : Option (Arr (Option K))

/-- Evaluate/longitudeCrossing.py L282-452 (`LongitudeCrossing.save`) -/
def saveCrossings (lib : Lib T K) (ty : Types T) (default nodata : K) (canOpen : Bool) (disk : Disk T K)
    (path : String) (c : Crossings K) : Disk T K × Outcome :=
  saveAll lib ty default nodata canOpen disk path c.gateLats.dropLast c.gateLons
    [⟨"hist", none, c.hist⟩, ⟨"hist_ew", none, c.histEW⟩, ⟨"hist_we", none, c.histWE⟩,
     ⟨"syn_mean", none, c.synMean⟩, ⟨"syn_mean_ew", none, c.synEW⟩, ⟨"syn_mean_we", none, c.synWE⟩,
     ⟨"syn_upper", some 90, c.synUpper⟩, ⟨"syn_upper_ew", some 90, c.synEWUpper⟩, ⟨"syn_upper_we", some 90, c.synWEUpper⟩,
     ⟨"syn_lower", some 5, c.synLower⟩, ⟨"syn_lower_ew", some 5, c.synEWLower⟩, ⟨"syn_lower_we", some 5, c.synWELower⟩]

/-! ### What is saved, from tracks -/

/-- An array from its rows, which have `c` entries -/
def ofRows {α : Type} (c : ℕ) (rows : List (List α)) : Arr α := ⟨[rows.length, c], rows.flatten⟩

/-- A statistic over the first axis of a stack of arrays of the given shape, masked entries left out:
`ma.mean(x, axis=0)`, `percentile(x, per, axis=0)` -/
def stack (stat : List ℚ → Option ℚ) (r c : ℕ) (maps : List (Arr (Option ℚ))) : Arr (Option ℚ) :=
  ⟨[r, c], (List.range (r * c)).map fun k => stat (maps.filterMap fun m => m.data[k]?.join)⟩

/-- Evaluate/trackDensity.py L122-154 (`historic`), L156-214 (`synthetic`, one process; `sims`: the tracks of each
file) and L111-120 (`calculateMeans`).  A division by zero (see `historicRate`) is not distinguished from a masked
entry. -/
def trackDensities (lons lats : List ℚ) (years : ℚ) (tracks : List Track) (sims : List (List Track)) :
    Except Evaluate.Err (Densities ℚ) :=
  match historicRate lons lats tracks with
  | .error e => .error e
  | .ok h =>
    let r := lons.length - 1
    let c := lats.length - 1
    let maps := sims.map fun s => ofRows c (syntheticRate lons lats years s)
    .ok ⟨lons, lats, some (ofRows c h), some (stack mean r c maps), some (stack (percentile · 95) r c maps),
      some (stack (percentile · 5) r c maps)⟩

/-- Evaluate/genesisDensity.py L176-196: first positions inside the domain -/
def genesisPoints (g : Limit) (tracks : List Track) : List (ℚ × ℚ) :=
  (tracks.filterMap fun t => t.head?.map fun o => (o.lon, o.lat)).filter fun p =>
    decide (g.xMin ≤ p.1) && decide (p.1 ≤ g.xMax) && (decide (g.yMin ≤ p.2) && decide (p.2 ≤ g.yMax))

/-- Evaluate/genesisDensity.py L163-202 (`_calculate`).  `kde` estimates a density from points
(`KDEMultivariate(…).pdf`), or raises; it is evaluated at the points of the grid, row by row for each latitude. -/
def genesisMap (kde : List (ℚ × ℚ) → Except Evaluate.Err (ℚ × ℚ → ℚ)) (g : Limit) (lons lats : List ℚ) (tracks : List Track) :
    Except Evaluate.Err (Arr (Option ℚ)) :=
  match kde (genesisPoints g tracks) with
  | .error e => .error e
  | .ok pdf =>
    .ok (transpose ⟨[lats.length, lons.length], lats.flatMap fun y => lons.map fun x => some (pdf (x, y))⟩)

/-- Evaluate/genesisDensity.py L218-252 (`historic`): the years are found (`min` of a track without records raises) but
not used. -/
def genesisHistoric (kde : List (ℚ × ℚ) → Except Evaluate.Err (ℚ × ℚ → ℚ)) (g : Limit) (lons lats : List ℚ)
    (tracks : List Track) : Except Evaluate.Err (Arr (Option ℚ)) :=
  match yearRange tracks (9999, 0) with
  | .error e => .error e
  | .ok _ => genesisMap kde g lons lats tracks

/-- Evaluate/genesisDensity.py L252-312 (`synthetic`, one process), L204-216 (`calculateMeans`), with the axes of
L95-100 -/
def genesisDensities (kde : List (ℚ × ℚ) → Except Evaluate.Err (ℚ × ℚ → ℚ)) (g : Limit) (tracks : List Track)
    (sims : List (List Track)) : Except Evaluate.Err (Densities ℚ) :=
  let lons := gridRange g.xMin g.xMax 1
  let lats := gridRange g.yMin g.yMax 1
  match genesisHistoric kde g lons lats tracks, sims.mapM (genesisMap kde g lons lats) with
  | .error e, _ => .error e
  | _, .error e => .error e
  | .ok h, .ok maps =>
    let r := lons.length
    let c := lats.length
    .ok ⟨lons, lats, some h, some (stack mean r c maps), some (stack (percentile · 95) r c maps),
      some (stack (percentile · 5) r c maps)⟩

/-- Evaluate/pressureDistribution.py L216-240 (`historic`), L242-315 (`synthetic`, one process) and L176-197
(`calculateMeans`), as far as saved on the grid -/
def pressureMaps (lons lats : List ℚ) (dx dy : ℚ) (tracks : List Track) (sims : List (List Track)) : Pressures ℚ :=
  let r := lons.length - 1
  let c := lats.length - 1
  let map := fun (f : CellStats → Option ℚ) (s : List Track) =>
    ofRows c ((pressureGrid lons lats dx dy s).map (·.map f))
  ⟨lons, lats, some (map (·.mean) tracks), some (map (·.min) tracks),
    some (stack mean r c (sims.map (map (·.mean)))), some (stack mean r c (sims.map (map (·.min))))⟩

/-- Evaluate/longitudeCrossing.py L102-157 (`findCrossings`): the columns of all gates side by side; `which` takes the
column of one kind of crossing. -/
def crossingMap (which : Option (List ℚ) × Option (List ℚ) × Option (List ℚ) → Option (List ℚ)) (gateLons gateLats : List ℚ)
    (tracks : List Track) : Arr (Option ℚ) :=
  ⟨[gateLats.length - 1, gateLons.length], (List.range (gateLats.length - 1)).flatMap fun i =>
    gateLons.map fun g => (which (findCrossings g gateLats tracks)).bind (·[i]?)⟩

/-- Evaluate/longitudeCrossing.py L176-204 (`historic`), L206-279 (`synthetic`, one process), L158-172 (`calcStats`) -/
def crossingMaps (gateLons gateLats : List ℚ) (tracks : List Track) (sims : List (List Track)) : Crossings ℚ :=
  let r := gateLats.length - 1
  let c := gateLons.length
  let all := sims.map (crossingMap (·.1) gateLons gateLats)
  let ew := sims.map (crossingMap (·.2.1) gateLons gateLats)
  let we := sims.map (crossingMap (·.2.2) gateLons gateLats)
  { gateLons := gateLons
    gateLats := gateLats
    hist := some (crossingMap (·.1) gateLons gateLats tracks)
    histEW := some (crossingMap (·.2.1) gateLons gateLats tracks)
    histWE := some (crossingMap (·.2.2) gateLons gateLats tracks)
    synMean := some (stack mean r c all)
    synEW := some (stack mean r c ew)
    synWE := some (stack mean r c we)
    synUpper := some (stack (percentile · 95) r c all)
    synEWUpper := some (stack (percentile · 95) r c ew)
    synWEUpper := some (stack (percentile · 95) r c we)
    synLower := some (stack (percentile · 5) r c all)
    synEWLower := some (stack (percentile · 5) r c ew)
    synWELower := some (stack (percentile · 5) r c we) }

end Tcrm.EvalSave
