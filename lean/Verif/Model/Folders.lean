import Mathlib.Data.Nat.Notation
import Mathlib.Logic.Function.Basic
/-!
Creation of the output folders: `doOutputDirectoryCreation` of tcrm.py and tcevent.py.

A path is the list of its components, the last one first, so that the folder containing `x :: p` is `p` and the root is
`[]`.  There are no symbolic links (`realpath` is the identity).
-/
namespace Tcrm.Folders

abbrev Path := List String

/-- What is at a path: a folder, or anything else -/
inductive Node where
  | dir
  | file (content : String)
  deriving DecidableEq

/-- A file system: what is at each path -/
abbrev FS := Path → Option Node

/-- FileExistsError, FileNotFoundError, NotADirectoryError, PermissionError; `killed` is not an exception, but the end of
the process. -/
inductive Err where
  | exists
  | notFound
  | notDirectory
  | permission
  | killed
  deriving DecidableEq

/-- The file system, and how many more folders are created before the process is killed (`none`: it is not) -/
structure World where
  fs : FS
  left : Option ℕ

/-- `os.mkdir`; `allowed` are the paths at which the system lets a folder be created. -/
def mkdir (allowed : Path → Bool) (w : World) : Path → World × Option Err
  | [] => (w, some .exists)
  | x :: p =>
    if w.left = some 0 then (w, some .killed)
    else
      match w.fs (x :: p), w.fs p with
      | some _, _ => (w, some .exists)
      | none, none => (w, some .notFound)
      | none, some (.file _) => (w, some .notDirectory)
      | none, some .dir =>
        if allowed (x :: p) then (⟨Function.update w.fs (x :: p) (some .dir), w.left.map (· - 1)⟩, none)
        else (w, some .permission)

/-- `os.makedirs` (of the Python library): folders above are made first; if one of them exists by then, that is no
error. -/
def makedirs (allowed : Path → Bool) (w : World) : Path → World × Option Err
  | [] => mkdir allowed w []
  | x :: p =>
    if (w.fs p).isNone then
      match makedirs allowed w p with
      | (w', none) => mkdir allowed w' (x :: p)
      | (w', some .exists) => mkdir allowed w' (x :: p)
      | (w', some e) => (w', some e)
    else mkdir allowed w (x :: p)

/-- tcrm.py L162-174, tcevent.py L79-90: each folder that is not there (`isdir`) is made; an exception ends it. -/
def create (allowed : Path → Bool) : World → List Path → World × Option Err
  | w, [] => (w, none)
  | w, d :: ds =>
    if w.fs d = some .dir then create allowed w ds
    else
      match makedirs allowed w d with
      | (w', none) => create allowed w' ds
      | r => r

/-- tcrm.py L158-160; 'plots/hazard' is `["hazard", "plots"]`. -/
def tcrmSubdirs : List Path :=
  [["tracks"], ["hazard"], ["windfield"], ["plots"], ["hazard", "plots"], ["stats", "plots"], ["log"], ["process"],
   ["timeseries", "process"], ["dat", "process"]]

/-- tcevent.py L76-77 -/
def tceventSubdirs : List Path :=
  [["tracks"], ["windfield"], ["plots"], ["timeseries", "plots"], ["log"], ["process"], ["timeseries", "process"]]

/-- The folders of a run with the output path `out` -/
def folders (out : Path) (subdirs : List Path) : List Path := out :: subdirs.map (· ++ out)

/-- tcrm.py L144-174 (`doOutputDirectoryCreation`) on the process of the given rank: nothing is done on others than
the first (`disableOnWorkers`, Utilities/parallel.py L118-133). -/
def tcrmFolders (rank : ℕ) (out : Path) : List Path := if rank = 0 then folders out tcrmSubdirs else []

/-- tcevent.py L61-90 (`doOutputDirectoryCreation`): on every process -/
def tceventFolders (_rank : ℕ) (out : Path) : List Path := folders out tceventSubdirs

/-! ### Several processes -/

/-- A process creating folders: those still to come, whether the first of them has been looked for (and was not
there), and the exception that ended it -/
structure Proc where
  todo : List Path
  missing : Bool
  error : Option Err

/-- The next step of a process: looking for a folder, or making it (in one step) -/
def Proc.step (allowed : Path → Bool) (fs : FS) (p : Proc) : FS × Proc :=
  match p.error, p.todo with
  | some _, _ => (fs, p)
  | none, [] => (fs, p)
  | none, d :: ds =>
    if p.missing then
      match makedirs allowed ⟨fs, none⟩ d with
      | (w, none) => (w.fs, ⟨ds, false, none⟩)
      | (w, some e) => (w.fs, ⟨d :: ds, true, some e⟩)
    else if fs d = some .dir then (fs, ⟨ds, false, none⟩)
    else (fs, ⟨d :: ds, true, none⟩)

/-- Any order of the steps of the processes -/
def runAll (allowed : Path → Bool) : FS → (ℕ → Proc) → List ℕ → FS × (ℕ → Proc)
  | fs, ps, [] => (fs, ps)
  | fs, ps, i :: is =>
    let r := (ps i).step allowed fs
    runAll allowed r.1 (Function.update ps i r.2) is

/-- The processes at the start -/
def start (todo : ℕ → List Path) : ℕ → Proc := fun i => ⟨todo i, false, none⟩

end Tcrm.Folders
