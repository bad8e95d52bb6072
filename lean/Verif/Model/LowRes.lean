import Verif.Model.LocalWind
/-!
Applying multipliers at the resolution of the wind fields: ProcessMultipliers/lowResProcessMultipliers.py. Values are
exact reals. GDAL's reprojection is a parameter: `sample b lat lon` is what it gives from band `b` of the multiplier file
(numbered from 1) for the cell at `lat`, `lon`.
-/
namespace Tcrm.LowRes
open LocalWind (Path join)

inductive Err where
  | fileNotFound
  | attributeError
  | indexError
  | osError
  deriving DecidableEq

/-- A wind field file: latitudes of its rows, longitudes of its columns; gust and its components by row and column. None
is missing. -/
structure Gust where
  lat : List ℝ
  lon : List ℝ
  vmax : ℕ → ℕ → ℝ
  ua : ℕ → ℕ → ℝ
  va : ℕ → ℕ → ℝ

/-- The files the program sees: names in the folder of wind fields (`os.listdir`), the files and folders that exist, and
the contents of wind fields (`none` where a file cannot be read as one). A path of a folder ends with the separator. -/
structure World where
  listing : List (List Char)
  isFile : Path → Bool
  isDir : Path → Bool
  gust : Path → Option Gust

/-- Python's `s.replace(pat, rep)` for a pattern that is not empty: from the left, without overlaps. The first argument
is the number of characters of a match still to be passed over. -/
def replace (pat rep : List Char) : ℕ → List Char → List Char
  | _, [] => []
  | k + 1, _ :: cs => replace pat rep k cs
  | 0, c :: cs =>
    if pat.isPrefixOf (c :: cs) then rep ++ replace pat rep (pat.length - 1) cs else c :: replace pat rep 0 cs

/-- The text "gust" of ProcessMultipliers/lowResProcessMultipliers.py L130 and L175 -/
def gustText : List Char := ['g', 'u', 's', 't']

/-- ProcessMultipliers/lowResProcessMultipliers.py L175: the name of the output -/
def outputPath (p : Path) : Path := replace gustText ['w', 'm', '_', 'g', 'u', 's', 't'] 0 p

/-- The folder of a path, with the separator at its end -/
def folder (p : Path) : Path := (p.reverse.dropWhile (· ≠ '/')).reverse

/-- ProcessMultipliers/lowResProcessMultipliers.py L130 -/
def gustFiles (w : World) (dir : Path) : List Path := (w.listing.filter fun n => gustText.isPrefixOf n).map (join dir)

/-- ProcessMultipliers/lowResProcessMultipliers.py L16-64 (`downscale_multipliers`): L32 asks for `os.path.path`, which
does not exist. -/
def downscale (w : World) (src matchFile _dst : Path) : Except Err Unit :=
  if ¬ w.isFile src then .error .fileNotFound
  else if ¬ w.isFile matchFile then .error .fileNotFound
  else .error .attributeError

/-- ProcessMultipliers/lowResProcessMultipliers.py L156: negative values (missing, or mixed with missing ones) -/
noncomputable def fill (x : ℝ) : ℝ := if x < 0 then 1 else x

/-- ProcessMultipliers/lowResProcessMultipliers.py L35-47 and L149-157: the bands on the grid of the file `first`. -/
noncomputable def bands (sample : ℕ → ℝ → ℝ → ℝ) (first : Gust) : List (ℕ → ℕ → ℝ) :=
  (List.range 8).map fun k i j => fill (sample (k + 1) (first.lat.getD i 0) (first.lon.getD j 0))

/-- ProcessMultipliers/lowResProcessMultipliers.py L164 and L169-172, at one cell: the table of directions is that of
ProcessMultipliers/processMultipliers.py (`indices`); the gust is kept where no round applies. -/
noncomputable def localAt (wind bear : ℝ) (m4 : ℕ → ℝ) : ℝ :=
  Multipliers.indices.zipIdx.foldl
    (fun loc e => if (e.1.2.1 : ℝ) ≤ bear ∧ bear < e.1.2.2 then wind * m4 e.2 else loc) wind

/-- ProcessMultipliers/lowResProcessMultipliers.py L161-172: one wind field. A cell outside the grid of the bands raises
IndexError. -/
noncomputable def apply (sample : ℕ → ℝ → ℝ → ℝ) (first g : Gust) : Except Err (ℕ → ℕ → ℝ) :=
  if 0 < g.lat.length ∧ 0 < g.lon.length ∧ (first.lat.length < g.lat.length ∨ first.lon.length < g.lon.length) then
    .error .indexError
  else
    .ok fun i j => localAt (g.vmax i j) (Multipliers.calculateBearing (g.ua i j) (g.va i j)) fun k =>
      (((bands sample first)[(Multipliers.bandNumbers[k]?).getD 0 - 1]?).getD fun _ _ => 0) i j

/-- ProcessMultipliers/lowResProcessMultipliers.py L161-175: the files one after the other; the outputs written, and the
error that ended the loop. -/
noncomputable def loop (w : World) (sample : ℕ → ℝ → ℝ → ℝ) (first : Gust) : List Path → List (Path × (ℕ → ℕ → ℝ)) × Option Err
  | [] => ([], none)
  | p :: ps =>
    match w.gust p with
    | none => ([], some .osError)
    | some g =>
      match apply sample first g with
      | .error e => ([], some e)
      | .ok v =>
        if w.isDir (folder (outputPath p)) then
          let r := loop w sample first ps
          ((outputPath p, v) :: r.1, r.2)
        else ([], some .osError)

/-- ProcessMultipliers/lowResProcessMultipliers.py L128-175 (`main`), for an outcome of the downscaling: the outputs
written, and the error. -/
noncomputable def mainWith (down : Path → Except Err Unit) (w : World) (sample : ℕ → ℝ → ℝ → ℝ) (dir : Path) :
    List (Path × (ℕ → ℕ → ℝ)) × Option Err :=
  match gustFiles w dir with
  | [] => ([], some .indexError)
  | p :: ps =>
    match down p with
    | .error e => ([], some e)
    | .ok () =>
      match w.gust p with
      | none => ([], some .osError)
      | some first => loop w sample first (p :: ps)

/-- ProcessMultipliers/lowResProcessMultipliers.py L117-126 and L128-135: the program. An exception is logged, and the
program ends as after success. -/
noncomputable def run (w : World) (sample : ℕ → ℝ → ℝ → ℝ) (dir mult work : Path) : List (Path × (ℕ → ℕ → ℝ)) × Option Err :=
  mainWith (fun p => downscale w mult p (join work "low_res_m4.tif".toList)) w sample dir

end Tcrm.LowRes
