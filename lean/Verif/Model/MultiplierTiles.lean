import Mathlib.Data.List.Basic
/-!
Collection of the multipliers of the configured tiles, ProcessMultipliers/processMultipliers.py L194-276. Folders are
lists of file names (the order is that of `glob`, which is not specified; nothing here depends on it); a folder that does
not exist is `none`; sub-folders do not occur. Special characters of `glob` patterns and of the shell do not occur in
names. `gdal_translate` and `gdal_merge` are external: whether a file can be translated is a parameter, and what is
recorded of a merge is the list of files that it is given.
-/
namespace Tcrm.MultTiles

abbrev Name := List Char

/-- The three multipliers: the keys of `type_mapping`, ProcessMultipliers/processMultipliers.py L1167 -/
inductive Kind where
  | shielding | terrain | topographic
  deriving DecidableEq

/-- The keys in the order of the dictionary -/
def kinds : List Kind := [.shielding, .terrain, .topographic]

/-- The name of the sub-folder -/
def Kind.name : Kind → Name
  | .shielding => ['s', 'h', 'i', 'e', 'l', 'd', 'i', 'n', 'g']
  | .terrain => ['t', 'e', 'r', 'r', 'a', 'i', 'n']
  | .topographic => ['t', 'o', 'p', 'o', 'g', 'r', 'a', 'p', 'h', 'i', 'c']

/-- The values of `type_mapping` in lower case -/
def Kind.var : Kind → Name
  | .shielding => ['m', 's']
  | .terrain => ['m', 'z']
  | .topographic => ['m', 't']

/-- ProcessMultipliers/processMultipliers.py L1168 -/
def dirns : List Name := [['e'], ['n'], ['n', 'e'], ['n', 'w'], ['s'], ['s', 'e'], ['s', 'w'], ['w']]

def tif : Name := ['.', 't', 'i', 'f']

inductive Err where
  | fileExists | notFound
  deriving DecidableEq

/-- The working directory: `folder k` is `working_dir/k` (used by `checkOutputFolders`), `joined k` is the folder that
`working_dir + k` names (used by the other methods). They are the same if `working_dir` ends with a slash. -/
structure Work where
  slash : Bool
  folder : Kind → Option (List Name)
  joined : Kind → Option (List Name)

/-- The folder that files are copied to -/
def Work.at (w : Work) (k : Kind) : Option (List Name) := if w.slash then w.folder k else w.joined k

/-- Replace the contents of the folder that files are copied to. -/
def Work.put (w : Work) (k : Kind) (l : List Name) : Work :=
  if w.slash then { w with folder := Function.update w.folder k (some l) }
  else { w with joined := Function.update w.joined k (some l) }

/-- `glob` does not show names with a leading dot for a pattern that begins otherwise. -/
def visible (f : Name) : Bool := decide (f.head? ≠ some '.')

/-- ProcessMultipliers/processMultipliers.py L213-214: `os.makedirs` for each kind -/
def makeFolders : List Kind → Work → Except Err Work
  | [], w => .ok w
  | k :: l, w =>
    match w.folder k with
    | some _ => .error .fileExists
    | none => makeFolders l { w with folder := Function.update w.folder k (some []) }

/-- ProcessMultipliers/processMultipliers.py L194-225 (`checkOutputFolders`); `computed` is
`self.computed_wm_path is not None`. -/
def checkOutputFolders (computed : Bool) (w : Work) : Except Err Work :=
  if computed then .ok w
  else match w.folder .shielding with
    | none => makeFolders kinds w
    | some _ => .ok { w with folder := fun k => (w.folder k).map fun l => l.filter fun f => !visible f }

/-- Add a file to a folder. -/
def insert (f : Name) (l : List Name) : List Name := if f ∈ l then l else l ++ [f]

/-- `output_name[:-3]` and `.tif`, ProcessMultipliers/processMultipliers.py L250-253 -/
def translated (f : Name) : Name := f.take (f.length - 3) ++ tif

/-- One file: ProcessMultipliers/processMultipliers.py L245-255. `os.system` ignores the failure of the translation. -/
def copyFile (translates : Kind → Name → Bool) (k : Kind) (w : Work) (f : Name) : Except Err Work :=
  match w.at k with
  | none => .error .notFound
  | some l =>
    let l := insert f l
    .ok (w.put k (if translates k f then insert (translated f) l else l))

/-- `glob.glob(pathn + tile + '*')`, ProcessMultipliers/processMultipliers.py L245; `src` is the folder of the raw
multipliers. A pattern that begins with a dot shows hidden files. -/
def globTile (src : List Name) (tile : Name) : List Name :=
  src.filter fun f => tile.isPrefixOf f && (visible f || !visible tile)

/-- ProcessMultipliers/processMultipliers.py L227-255 (`copyTranslateMultipliers`) -/
def copyTranslate (translates : Kind → Name → Bool) (src : Kind → List Name) (tiles : List Name) (w : Work) :
    Except Err Work :=
  tiles.foldlM (fun w tile => kinds.foldlM (fun w k => (globTile (src k) tile).foldlM (copyFile translates k) w) w) w

/-- `glob.glob(pathn + '*_' + dirn + '.tif')`, ProcessMultipliers/processMultipliers.py L270 -/
def globDir (l : List Name) (dirn : Name) : List Name :=
  l.filter fun f => visible f && ('_' :: dirn ++ tif).isSuffixOf f

/-- A merge: the kind, the direction and the files merged -/
structure Merge where
  kind : Kind
  dirn : Name
  files : List Name
  deriving DecidableEq

/-- One direction of one kind, ProcessMultipliers/processMultipliers.py L269-275; the merged file is written to the same
folder if there is something to merge. A folder that does not exist gives an empty list. -/
def mergeOne (w : Work) (k : Kind) (d : Name) : Merge × Work :=
  match w.at k with
  | none => (⟨k, d, []⟩, w)
  | some l =>
    let files := globDir l d
    (⟨k, d, files⟩, if files = [] then w else w.put k (insert (d ++ '_' :: k.name ++ tif) l))

/-- All directions of one kind -/
def mergeKind (k : Kind) : List Name → Work → List Merge × Work
  | [], w => ([], w)
  | d :: l, w =>
    let r := mergeOne w k d
    let q := mergeKind k l r.2
    (r.1 :: q.1, q.2)

/-- ProcessMultipliers/processMultipliers.py L257-276 (`mergeWindMultipliers`) -/
def merge : List Kind → List Name → Work → List Merge × Work
  | [], _, w => ([], w)
  | k :: l, ds, w =>
    let r := mergeKind k ds w
    let q := merge l ds r.2
    (r.1 ++ q.1, q.2)

/-- ProcessMultipliers/processMultipliers.py L1199-1211 (`main`), without a computed file and with local sources: the
merges made -/
def collect (translates : Kind → Name → Bool) (src : Kind → List Name) (tiles : List Name) (w : Work) :
    Except Err (List Merge × Work) := do
  let w ← checkOutputFolders false w
  let w ← copyTranslate translates src tiles w
  return merge kinds dirns w

/-- ProcessMultipliers/processMultipliers.py L370-372 (`check_if_wm_source_from_s3`): the files asked for of a kind -/
def s3Names (tiles : List Name) (k : Kind) : List Name :=
  tiles.flatMap fun t => dirns.map fun d => t ++ '_' :: k.var ++ '_' :: d ++ ['.', 'n', 'c']

end Tcrm.MultTiles
