import Verif.Model.HazardRun
/-!
The folder of wind fields as the hazard stage finds it, and the grid the stage takes from it.
-/
namespace Tcrm.WindDir

open Tcrm.GustFiles (Name)

/-- A file of the folder as the netCDF library reads it: its longitudes and latitudes (`none` if it cannot be opened
or has none, which raises) and its maximum gusts by row and column (`none` if it has none). -/
structure File (A : Type) where
  axes : Option (List A × List A)
  vmax : Option (ℕ → ℕ → ℝ)

/-- hazard/__init__.py L44-61 (`setDomain`): the longitudes and latitudes of the first file listed by `os.listdir`.
`none`: an exception (IndexError if the folder is empty). -/
def setDomain {A : Type} : List (Name × File A) → Option (List A × List A)
  | [] => none
  | f :: _ => f.2.axes

/-- What hazard/__init__.py L865-920 reads of the folder. -/
def winds {A : Type} (dir : List (Name × File A)) : List (Name × Option (ℕ → ℕ → ℝ)) :=
  dir.map fun f => (f.1, f.2.vmax)

/-- wind/__init__.py L552-558 with L391-397: the file of a wind field. Latitudes are turned round (`np.flipud`);
`v` gives the gusts by row of the file. -/
def gustFile {A : Type} (lon lat : List A) (e : (ℕ × ℕ) × (ℕ → ℕ → ℝ)) : Name × File A :=
  (GustFiles.gustName e.1, ⟨some (lon, lat.reverse), some e.2⟩)

/-- wind/__init__.py L466-474 with wind/writer.py L60-103: the file of all time steps, written if the configuration asks
for it. Latitudes are from south to north, and there is no variable `vmax`. (Where the resolution does not divide the
region its axes differ from those of the wind field, see C90; here they have the same values.) -/
def evolutionFile {A : Type} (lon lat : List A) (id : ℕ × ℕ) : Name × File A :=
  (GustFiles.evolutionName id, ⟨some (lon, lat), none⟩)

/-- ProcessMultipliers/processMultipliers.py L835-846, L909: the rasters left in the folder if multipliers are
configured (GeoTIFF, no netCDF). -/
def rasters {A : Type} : List (Name × File A) :=
  ["region_wind.tif", "gust_prj.tif", "bear_prj.tif", "uu_prj.tif", "vv_prj.tif", "local_wind.tif"].map fun s =>
    (s.toList, ⟨none, none⟩)

/-- What the wind-field stage writes for the tracks with the given identifiers and fields, with the two options. -/
def written {A : Type} (lon lat : List A) (events : List ((ℕ × ℕ) × (ℕ → ℕ → ℝ))) (timeSteps multipliers : Bool) :
    List (Name × File A) :=
  events.map (gustFile lon lat) ++ (if timeSteps then events.map fun e => evolutionFile lon lat e.1 else []) ++
    (if multipliers then rasters else [])

end Tcrm.WindDir
