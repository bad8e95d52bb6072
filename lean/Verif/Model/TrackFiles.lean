import Mathlib.Data.Rat.Floor
import Mathlib.Data.List.Sort
/-!
Track files, Utilities/track.py. Times are exact seconds from 1900-01-01 00:00 in the calendar of the
file, numbers are exact. `I` are track identifiers (`repr` and `eval` of an identifier are taken to be
inverse), `D` the columns of an observation other than the time.
-/
namespace Tcrm.TrackFiles

inductive Err where
  | ioError
  | typeError
  deriving DecidableEq

/-- Units `'<unit> since <time>'`: seconds of the unit, and the reference time in seconds. -/
structure Units where
  scale : ℚ
  origin : ℚ

/-- The units `'hours since 1900-01-01 00:00'`. -/
def hours1900 : Units := ⟨3600, 0⟩

/-- An entry of the column `Datetime` (an object column): a time, or a number after saving. -/
inductive Stamp where
  | time (t : ℚ)
  | num (x : ℚ)
  deriving DecidableEq

structure Row (D : Type) where
  stamp : Stamp
  rest : D
  deriving DecidableEq

/-- Utilities/track.py L59-91 (`Track`): the identifier and the data. -/
structure Track (I D : Type) where
  id : I
  rows : List (Row D)
  deriving DecidableEq

/-- A group of a track file: name, the `units` attribute of its times, the stored table and the
identifier attribute. -/
structure Group (I D : Type) where
  name : List Char
  units : Units
  rows : List (ℚ × D)
  id : Option I

/-- A track file: separate variables for a single track (no groups), the group `tracks`, or other
groups. -/
inductive File (I D : Type) where
  | flat (units : Units) (rows : List (ℚ × D)) (id : I)
  | tracks (groups : List (Group I D))
  | otherGroups

def Disk (I D : Type) : Type := List Char → Option (File I D)

/-- Python `'{:04d}'.format(n)` for a natural number. -/
def pad4 (n : ℕ) : List Char := List.replicate (4 - (Nat.toDigits 10 n).length) '0' ++ Nat.toDigits 10 n

/-- Utilities/track.py L318 -/
def groupName (n : ℕ) : List Char := "tracks-".toList ++ pad4 n

variable {I D : Type}

/-- `netCDF4.date2num` for one entry; it takes times only. -/
def date2num (u : Units) : Stamp → Except Err ℚ
  | .time t => .ok ((t - u.origin) / u.scale)
  | .num _ => .error .typeError

/-- `netCDF4.num2date` and the conversion through a text without fractions of a second, Utilities/track.py
L216-218 and L239-250. -/
def num2date (u : Units) (x : ℚ) : ℚ := ⌊u.origin + x * u.scale⌋

/-- Utilities/track.py L315-340 for track number `n`: the group, if any, and the track afterwards, whose
`Datetime` column has been replaced (L327). The units are written as fixed text (L329). -/
def saveOne (u : Units) (n : ℕ) (t : Track I D) : Except Err (Option (Group I D) × Track I D) :=
  if t.rows = [] then .ok (none, t)
  else
    match t.rows.mapM fun r => date2num u r.stamp with
    | .error e => .error e
    | .ok xs => .ok (some ⟨groupName n, hours1900, xs.zip (t.rows.map (·.rest)), some t.id⟩,
        ⟨t.id, (xs.zip t.rows).map fun p => ⟨.num p.1, p.2.rest⟩⟩)

/-- The loop, Utilities/track.py L315-340, from track number `n`. -/
def saveAll (u : Units) : ℕ → List (Track I D) → Except Err (List (Group I D) × List (Track I D))
  | _, [] => .ok ([], [])
  | n, t :: ts =>
    match saveOne u n t with
    | .error e => .error e
    | .ok p =>
      match saveAll u (n + 1) ts with
      | .error e => .error e
      | .ok q => .ok (p.1.toList ++ q.1, p.2 :: q.2)

/-- Utilities/track.py L267-347 (`ncSaveTracks`), for a path that can be written. The result is the disk
and the tracks in memory. -/
def save (u : Units) (disk : Disk I D) (path : List Char) (ts : List (Track I D)) :
    Except Err (Disk I D × List (Track I D)) :=
  if ts = [] then .ok (disk, ts)
  else
    match saveAll u 0 ts with
    | .error e => .error e
    | .ok q => .ok (fun p => if p = path then some (.tracks q.1) else disk p, q.2)

/-- Utilities/track.py L236-259 for one group; `fallback` is the identifier `(i + 1, ntracks)`. -/
def readGroup (fallback : ℕ → ℕ → I) (ntracks i : ℕ) (g : Group I D) : Track I D :=
  ⟨g.id.getD (fallback (i + 1) ntracks), g.rows.map fun r => ⟨.time (num2date g.units r.1), r.2⟩⟩

/-- Utilities/track.py L188-265 (`ncReadTrackData`). `order` is the order in which the library lists the
groups. -/
def read (fallback : ℕ → ℕ → I) (order : List (Group I D) → List (Group I D)) : File I D → List (Track I D)
  | .flat u rows id => [⟨id, rows.map fun r => ⟨.time (num2date u r.1), r.2⟩⟩]
  | .tracks gs => (order gs).mapIdx fun i g => readGroup fallback gs.length i g
  | .otherGroups => []

/-- Utilities/track.py L402-421 (`loadTracks`), for a name that is a string. -/
def loadTracks (fallback : ℕ → ℕ → I) (order : List (Group I D) → List (Group I D)) (disk : Disk I D)
    (path : List Char) : Except Err (List (Track I D)) :=
  match disk path with
  | none => .error .ioError
  | some f => .ok (read fallback order f)

/-- Utilities/track.py L423-449 (`loadTracksFromFiles`), a generator: the tracks it yields before it
stops, and the exception it stops with, if any. -/
def loadTracksFromFiles (load : List Char → Except Err (List (Track I D))) :
    List (List Char) → List (Track I D) × Option Err
  | [] => ([], none)
  | f :: fs =>
    match load f with
    | .error e => ([], some e)
    | .ok ts => (ts ++ (loadTracksFromFiles load fs).1, (loadTracksFromFiles load fs).2)

/-- Utilities/track.py L451-471 (`loadTracksFromPath`): `names` is what `os.listdir` gives, `none` if the
directory does not exist; `path` ends with the separator. -/
def loadTracksFromPath (load : List Char → Except Err (List (Track I D))) (path : List Char)
    (names : Option (List (List Char))) : Except Err (List (Track I D) × Option Err) :=
  match names with
  | none => .error .ioError
  | some ns =>
    .ok (loadTracksFromFiles load (((ns.filter fun f => "tracks".toList.isPrefixOf f).map (path ++ ·)).mergeSort
      fun a b => decide (a ≤ b)))

/-! Track files in csv format. -/

/-- A row of a csv file: the cyclone number and the rest. -/
structure CsvRow (D : Type) where
  number : ℤ
  rest : D
  deriving DecidableEq

/-- Utilities/track.py L349-378 (`readTrackData`): `none` is a line that cannot be converted, which
makes `np.loadtxt` raise ValueError. -/
def readTrackData (lines : List (Option (CsvRow D))) : List (CsvRow D) :=
  if none ∈ lines.map (·.map fun _ => ()) then [] else lines.filterMap id

/-- Utilities/track.py L380-400 (`readMultipleTrackData`). `np.loadtxt` gives an array without dimension
for a single row, which has no `len`. -/
def readMultipleTrackData (lines : List (Option (CsvRow D))) : Except Err (List (List (CsvRow D))) :=
  match readTrackData lines with
  | [] => .ok [[]]
  | [_] => .error .typeError
  | r :: rs =>
    let top := (rs.map (·.number)).foldl max r.number
    .ok ((List.range top.toNat).map fun i => (r :: rs).filter fun x => x.number = ((i + 1 : ℕ) : ℤ))

end Tcrm.TrackFiles
