import Verif.Model.Multipliers
import Verif.Model.GustFiles
/-!
The local winds calculated in the wind-field stage: `calcLocalWindfield` and the files `processMult` opens.
-/
namespace Tcrm.LocalWind

/-- A path, as characters -/
abbrev Path := List Char

/-- `os.path.join` of two parts (POSIX): an absolute second part stands alone. -/
def join (a b : Path) : Path :=
  if b.head? = some '/' then b else if a = [] ∨ a.getLast? = some '/' then a ++ b else a ++ '/' :: b

/-- A raster file as `loadRasterFile` gives it (ProcessMultipliers/processMultipliers.py L636-661): its grid (projection,
origin, size) and its values by row and column, missing ones replaced by 1. -/
structure Raster (G : Type) where
  grid : G
  value : ℕ → ℕ → ℝ

/-- ProcessMultipliers/processMultipliers.py L900: the file of a direction in the working directory. -/
def directionFile (dir : Path) (dn : String) : Path := join dir ("m4_" ++ dn ++ ".tif").toList

/-- wind/__init__.py L738-770 (`calcLocalWindfield`) for one track, with ProcessMultipliers/processMultipliers.py
L811-928 (`processMult`): `folder` is the folder of the wind fields, `configured` the setting `Multipliers` of section
`Input`, `onto g` the gusts and bearings of the track on the grid `g` (`reprojectDataset`). The configured path is opened
to match the grid (L855, L857); the multipliers are read from the folder (L900-901). A file that is not there raises:
`none`. The rasters written meanwhile (L835-846) have other names. -/
noncomputable def calcLocalWindfield {G : Type} (disk : Path → Option (Raster G)) (folder configured : Path)
    (onto : G → ℕ → ℕ → ℝ × ℝ) : Option (ℕ → ℕ → ℝ) :=
  match disk (join folder configured) with
  | none => none
  | some m =>
    match Multipliers.indices.mapM fun e => disk (directionFile folder e.1) with
    | none => none
    | some m4 => some fun r c =>
      Multipliers.localWind (onto m.grid r c).1 (onto m.grid r c).2 fun i => ((m4[i]?).map fun x => x.value r c).getD 0

/-- wind/__init__.py L532-561 (the loop of `dumpGustsFromTracks`): the files of gusts present after a run over the tracks,
and whether the run got to its end. `ok t`: the local winds of track `t` could be calculated. A track whose file is
present is passed over; a failing calculation ends the run, after the gusts have been saved. -/
def dumpGusts {T : Type} (name : T → GustFiles.Name) (ok : T → Bool) : List T → List GustFiles.Name →
    List GustFiles.Name × Bool
  | [], present => (present, true)
  | t :: ts, present =>
    if name t ∈ present then dumpGusts name ok ts present
    else if ok t then dumpGusts name ok ts (present ++ [name t])
    else (present ++ [name t], false)

end Tcrm.LocalWind
