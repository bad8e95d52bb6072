import Verif.Model.WindRun
/-!
The simulation of an event (tcevent.py): track file, wind field and map.  The interpolation of the track is C91 to C95,
plots of time series are not part of the model.
-/
namespace Tcrm.Event

open Tcrm.Windfield Tcrm.WindRun

/-- A file name (without directory) -/
abbrev Name := GustFiles.Name

/-- `str.split('.')` -/
def splitDots : Name → List Name
  | [] => [[]]
  | c :: s =>
    if c = '.' then [] :: splitDots s
    else match splitDots s with
      | [] => [[c]]
      | w :: ws => (c :: w) :: ws

/-- `str.endswith` -/
def endsWith (s e : Name) : Bool := e.isSuffixOf s

/-- Evaluate/interpolateTracks.py L299-308 and L331-347, Utilities/loadData.py L957-960: identifiers of the tracks of the input
file. A TCRM track file has its own identifiers `own`, in a BoM file they count from 0, in a table from 1, the second
part then is the number of events. `n` is the number of events. -/
def identifiers (input : Name) (own : List (ℕ × ℕ)) (n : ℕ) : List (ℕ × ℕ) :=
  if endsWith input "nc".toList then own
  else if endsWith input "xml".toList then (List.range n).map fun i => (i, i)
  else (List.range n).map fun i => (i + 1, n)

/-- tcevent.py L129-140: name of the wind field that is mapped; `none` if the input name has no second part (IndexError,
which cannot happen as the name contains a dot). -/
def mapped (input : Name) : Option Name :=
  if endsWith input ".nc".toList then
    (splitDots input)[1]?.map fun w => "gust.".toList ++ w ++ ".nc".toList
  else some "gust.001-00001.nc".toList

/-- A map: coordinates in hundredths of a degree, and the gusts by row and column -/
structure Map where
  lons : List ℤ
  lats : List ℤ
  gust : List (List ℝ)

/-- tcevent.py L143-161: the part of a wind field within the region, or all of it -/
def crop (region : Option Limits) (f : File) : Map :=
  match region with
  | none => ⟨f.lons, f.lats, (List.range f.lats.length).map fun j => (List.range f.lons.length).map fun i =>
      (f.field j i).gust⟩
  | some gl =>
    let ii := (List.range f.lons.length).filter fun i =>
      decide (gl.xMin ≤ (f.lons.getD i 0 : ℚ) / 100) && decide ((f.lons.getD i 0 : ℚ) / 100 ≤ gl.xMax)
    let jj := (List.range f.lats.length).filter fun j =>
      decide (gl.yMin ≤ (f.lats.getD j 0 : ℚ) / 100) && decide ((f.lats.getD j 0 : ℚ) / 100 ≤ gl.yMax)
    ⟨ii.map fun i => f.lons.getD i 0, jj.map fun j => f.lats.getD j 0, jj.map fun j => ii.map fun i => (f.field j i).gust⟩

/-- Settings: the region, the limits of the wind field if set, and the other settings of the wind field -/
structure Config where
  region : Option Limits
  wind : Option Limits
  params : Params

/-- How a run ends -/
inductive Err where
  | windfield (e : Windfield.Err)
  | noTrackFiles
  | index
  | fileNotFound
  | emptyMap

/-- tcevent.py L173-213 (`main`), with wind/__init__.py L889-983: the map of a run on one process, and the wind fields present
at the end. `tracks` are the interpolated tracks of the input, written to the track file `e`, which replaces an earlier one;
`listing` are the track files then present and `others` their tracks, `old` the wind fields present at the start. Maps of wind
fields without cells raise (`min` of an empty array). -/
noncomputable def run {F : Type} [LinearOrder F] (c : Config) (input : Name) (e : F) (tracks : List Track)
    (others : F → List Track) (listing : List F) (old : List (Name × File)) : Except Err (Map × List (Name × File)) :=
  let gl := c.wind.orElse fun _ => c.region
  match Balanced.tracksOfRank (fun f => filterTracks gl c.params.margin (Function.update others e tracks f)) listing 1 0 with
  | none => .error .noTrackFiles
  | some ts =>
    match dump c.params gl (old.map (·.1)) ts with
    | .error x => .error (.windfield x)
    | .ok new =>
      match mapped input with
      | none => .error .index
      | some name =>
        match (old ++ new).find? fun f => f.1 = name with
        | none => .error .fileNotFound
        | some f =>
          let m := crop c.region f.2
          if m.lons = [] ∨ m.lats = [] then .error .emptyMap else .ok (m, old ++ new)

end Tcrm.Event
