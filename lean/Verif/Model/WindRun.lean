import Verif.Model.Windfield
import Verif.Model.Balanced
import Verif.Model.GustFiles
/-!
The wind-field stage as a whole: choice of the tracks, the domain, the tracks of each process and the
files written (wind/__init__.py).  Files left by an earlier run are C22, local wind fields C56.
-/
namespace Tcrm.WindRun

open Tcrm.Windfield

/-- A track of a track file: its identifier, its positions with the wind model along it, and the
environmental pressure of its first position. -/
structure Track where
  id : ℕ × ℕ
  steps : List TimeStep
  env : ℝ

/-- wind/__init__.py L772-786 (`inRegion`): whether the box around the track meets the region with its
margin. (A track without positions raises; track files have none.) -/
def meets (gl : Limits) (margin : ℚ) (t : Track) : Bool :=
  match (t.steps.map (·.lon)).max?, (t.steps.map (·.lon)).min?, (t.steps.map (·.lat)).max?,
      (t.steps.map (·.lat)).min? with
  | some e, some w, some n, some s =>
    decide (gl.xMin - margin ≤ e) && decide (w ≤ gl.xMax + margin) &&
      decide (gl.yMin - margin ≤ n) && decide (s ≤ gl.yMax + margin)
  | _, _, _, _ => false

/-- wind/__init__.py L788-806 (`filterTracks`) -/
def filterTracks (gl : Option Limits) (margin : ℚ) (tracks : List Track) : List Track :=
  match gl with
  | some gl => tracks.filter (meets gl margin)
  | none => tracks

/-- wind/__init__.py L416-434 (`setGridLimit`); the start values 9999 and -9999 are beyond any
position. -/
def autoLimit (t : Track) : Limits :=
  { xMin := (⌊((t.steps.map (·.lon)).min?.getD 9999)⌋ : ℤ)
    xMax := (⌈((t.steps.map (·.lon)).max?.getD (-9999))⌉ : ℤ)
    yMin := (⌊((t.steps.map (·.lat)).min?.getD 9999)⌋ : ℤ)
    yMax := (⌈((t.steps.map (·.lat)).max?.getD (-9999))⌉ : ℤ) }

/-- A gust file: its axes (in hundredths of a degree) and its field. -/
structure File where
  lats : List ℤ
  lons : List ℤ
  field : ℕ → ℕ → Cell

/-- wind/__init__.py L545-556: the file of a field; `np.flipud` turns latitudes and rows round. -/
def toFile (f : ℕ → ℕ → Cell) (lons lats : List ℤ) : File :=
  ⟨lats.reverse, lons, fun j i => f (lats.length - 1 - j) i⟩

/-- wind/__init__.py L509-561 (`dumpGustsFromTracks`) and L449-451 on one process: the files written, in
order, given the domain of the generator (if it has one already) and the names of the complete files
present. -/
noncomputable def dump (P : Params) : Option Limits → List GustFiles.Name → List Track →
    Except Err (List (GustFiles.Name × File))
  | _, _, [] => .ok []
  | gl, present, t :: ts =>
    if GustFiles.gustName t.id ∈ present then dump P gl present ts
    else
      let g := gl.getD (autoLimit t)
      match regionalExtremes P g t.env t.steps with
      | .error e => .error e
      | .ok (f, lons, lats) =>
        match dump P (some g) (GustFiles.gustName t.id :: present) ts with
        | .error e => .error e
        | .ok ws => .ok ((GustFiles.gustName t.id, toFile f lons lats) :: ws)

/-- wind/__init__.py L960-983 and L707-736 on the process `p` of `n`, beginning with an empty directory:
the files of tracks are those of the listing, `content` their tracks. `none` if there are no track
files (IndexError). -/
noncomputable def rank {F : Type} [LinearOrder F] (P : Params) (gl : Option Limits)
    (content : F → List Track) (listing : List F) (n p : ℕ) :
    Option (Except Err (List (GustFiles.Name × File))) :=
  (Balanced.tracksOfRank (fun f => filterTracks gl P.margin (content f)) listing n p).map
    (dump P gl [])

end Tcrm.WindRun
