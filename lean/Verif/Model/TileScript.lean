import Verif.Model.MultiplierTiles
/-!
The separate script that collects the multipliers of the configured tiles, Utilities/get_multipliers.py L106-182. It copies
and merges as `ProcessMultipliers/processMultipliers.py` does (see Model/MultiplierTiles.lean, also for the simplifications:
`gdal_translate` and `gdal_merge` are external), but prepares the folders differently. Here `output_path` is the working
directory.
-/
namespace Tcrm.MultTiles

/-- Utilities/get_multipliers.py L106-123 (`checkOutputFolders`): the folders are made if `shielding` is missing. The three
`os.makedirs` of L121-123 are in the order of `kinds`. -/
def prepareFolders (w : Work) : Except Err Work :=
  match w.folder .shielding with
  | none => makeFolders kinds w
  | some _ => .ok w

/-- Utilities/get_multipliers.py L229-233 (`main`) up to the merges. `copyTranslate` here is L150-164
(`copyTranslateMultipliers`) and `merge` is L175-182 (`mergeWindMultipliers`), `kinds` and `dirns` are those of L229-230. -/
def script (translates : Kind → Name → Bool) (src : Kind → List Name) (tiles : List Name) (w : Work) :
    Except Err (List Merge × Work) := do
  let w ← prepareFolders w
  let w ← copyTranslate translates src tiles w
  return merge kinds dirns w

/-- Several runs of the script with the same output folder, each with its own tiles -/
def scripts (translates : Kind → Name → Bool) (src : Kind → List Name) : List (List Name) → Work → Except Err Work
  | [], w => .ok w
  | tiles :: rest, w =>
    match script translates src tiles w with
    | .error e => .error e
    | .ok r => scripts translates src rest r.2

end Tcrm.MultTiles
