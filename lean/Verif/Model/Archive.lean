import Verif.Model.Datasets
import Mathlib.Logic.Function.Basic
/-!
Archiving processed files (Utilities/process.py L190-311). Paths are pairs of folder and name; that two folders written
differently may be the same is not modelled, nor are folders that cannot be created.
-/
namespace Tcrm.Archive

open Tcrm.Datasets (Name splitext)

/-- Folder (empty for the current one) and name -/
abbrev Path := Name × Name

/-- A file: its content and its time of modification -/
structure File (C : Type) where
  content : C
  mtime : ℕ
  deriving DecidableEq

/-- The disk, and the globals of Utilities/process.py L24-28; `fmt` is the date format as `flModDate`
(Utilities/files.py L280-299) applies it. -/
structure State (C : Type) where
  disk : Path → Option (File C)
  archDir : Name
  timestamp : Bool
  fmt : ℕ → Name

/-- The globals at the start, Utilities/process.py L26-28 -/
def start {C : Type} (disk : Path → Option (File C)) (fmt : ℕ → Name) : State C := ⟨disk, [], true, fmt⟩

/-- What `pArchiveFile` does: an exception, or a return value of 0 or 1 -/
inductive Outcome where
  | raised
  | notMoved
  | moved
  deriving DecidableEq

variable {C : Type}

/-- Utilities/process.py L190-217 (`pArchiveDir`): an empty text only asks for the folder. (The `rstrip` of L207 has no
effect.) -/
def setDir (s : State C) (dir : Name) : State C := if dir = [] then s else { s with archDir := dir }

/-- Utilities/process.py L239-255 (`pArchiveTimestamp`) -/
def setTimestamp (s : State C) (timestamp : Bool) : State C := if timestamp then { s with timestamp := true } else s

/-- Utilities/process.py L220-236 (`pArchiveDateFormat`) -/
def setFormat (s : State C) (fmt : ℕ → Name) : State C := { s with fmt := fmt }

/-- Utilities/process.py L290-293, L304-308: the name in the archive -/
def target (s : State C) (name : Name) (mtime : ℕ) : Path :=
  let parts := splitext name
  let ext := parts.2.dropWhile (· = '.')
  (s.archDir, if s.timestamp then parts.1 ++ '.' :: s.fmt mtime ++ '.' :: ext else parts.1 ++ '.' :: ext)

/-- Utilities/process.py L257-277 (`pMoveFile`): `os.rename` replaces a file at the destination. `can` is false if the
system refuses (another file system, no permission). -/
def move (can : Path → Path → Bool) (disk : Path → Option (File C)) (p q : Path) :
    (Path → Option (File C)) × Outcome :=
  match disk p with
  | none => (disk, .notMoved)
  | some f => if can p q then (Function.update (Function.update disk p none) q (some f), .moved) else (disk, .notMoved)

/-- Utilities/process.py L279-311 (`pArchiveFile`). A file that is not there raises if its date is wanted (L305). -/
def archive (can : Path → Path → Bool) (s : State C) (p : Path) : State C × Outcome :=
  match s.disk p with
  | none => if s.timestamp then (s, .raised) else
    let r := move can s.disk p (target s p.2 0)
    ({ s with disk := r.1 }, r.2)
  | some f =>
    let r := move can s.disk p (target s p.2 f.mtime)
    ({ s with disk := r.1 }, r.2)

/-- Calls of the module, and changes of files by others -/
inductive Op (C : Type) where
  | dir (d : Name)
  | stamp (b : Bool)
  | format (fmt : ℕ → Name)
  | archive (p : Path)
  | write (p : Path) (f : File C)
  | remove (p : Path)

/-- One step -/
def step (can : Path → Path → Bool) (s : State C) : Op C → State C
  | .dir d => setDir s d
  | .stamp b => setTimestamp s b
  | .format f => setFormat s f
  | .archive p => (archive can s p).1
  | .write p f => { s with disk := Function.update s.disk p (some f) }
  | .remove p => { s with disk := Function.update s.disk p none }

/-- A history -/
def run (can : Path → Path → Bool) (s : State C) (ops : List (Op C)) : State C := ops.foldl (step can) s

end Tcrm.Archive
