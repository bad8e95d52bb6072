import Mathlib.Data.List.Infix
import Mathlib.Logic.Function.Basic
/-!
Download of the input datasets (Utilities/datasets.py) into a directory.  Bytes are an arbitrary type. The
directory is there, and the server announces the size of what it sends.
-/
namespace Tcrm.Datasets

abbrev Name := List Char

/-- Compression recognised by the extension of the address -/
inductive Compression where
  | plain
  | gz
  | zip
  deriving DecidableEq

/-- A dataset: where it is stored (directory and file name) and how it is compressed -/
structure DataSet where
  file : Name × Name
  compression : Compression
  deriving DecidableEq

/-- `url.split('/')[-1]` -/
def lastPart (url : Name) : Name := (url.reverse.takeWhile (· ≠ '/')).reverse

/-- `os.path.splitext` of a name without directory: split before the last full stop, unless only full stops precede it. -/
def splitext (s : Name) : Name × Name :=
  let ext := (s.reverse.takeWhile (· ≠ '.')).reverse
  let base := s.take (s.length - ext.length - 1)
  if base.all (· = '.') then (s, []) else (base, '.' :: ext)

/-- Utilities/datasets.py L28-39 (`__init__`): an empty name counts as none given -/
def make (url path : Name) (filename : Option Name) : DataSet :=
  let given := filename.filter (· ≠ [])
  let parts := splitext (lastPart url)
  if parts.2 = ".gz".toList then ⟨(path, given.getD parts.1), .gz⟩
  else if parts.2 = ".zip".toList then ⟨(path, given.getD parts.1), .zip⟩
  else ⟨(path, given.getD (lastPart url)), .plain⟩

/-- The files of the disk -/
abbrev Disk (B : Type) := Name × Name → Option (List B)

/-- How a call ends -/
inductive Outcome where
  | done
  | raised
  deriving DecidableEq

/-- The libraries for compressed files: the content of a gzip file (`none` if it is damaged), and whether a zip archive can be opened -/
structure Tools (B : Type) where
  gunzip : List B → Option (List B)
  isZip : List B → Bool

/-- Utilities/datasets.py L68-84: what is written to the file after it has been opened. Reading a damaged gzip file raises, and
`ZipFile.read` without the name of a member raises. -/
def content {B : Type} (tools : Tools B) (c : Compression) (received : List B) : Option (List B) :=
  match c with
  | .plain => some received
  | .gz => tools.gunzip received
  | .zip => none

/-- Utilities/datasets.py L41-96 (`download`, `isDownloaded`): states of the disk that a call passes through, the last being that at
its end, and its outcome. `response` are the bytes received until the server ended the transfer, `none` if the server cannot be
reached; their number is not compared with the announced size. Bytes are written one after the other. -/
def download {B : Type} (tools : Tools B) (s : DataSet) (response : Option (List B)) (d : Disk B) :
    List (Disk B) × Outcome :=
  if (d s.file).isSome then ([d], .done)
  else match response with
    | none => ([d], .raised)
    | some received =>
      if s.compression = .zip ∧ tools.isZip received = false then ([d], .raised)
      else match content tools s.compression received with
      | none => ([d, Function.update d s.file (some [])], .raised)
      | some c => (d :: c.inits.map fun p => Function.update d s.file (some p), .done)

/-- An attempt: the response of the server, and after how many states the program was stopped (`none`: not stopped) -/
structure Attempt (B : Type) where
  response : Option (List B)
  stop : Option ℕ

/-- The disk after an attempt -/
def after {B : Type} (tools : Tools B) (s : DataSet) (d : Disk B) (a : Attempt B) : Disk B :=
  let states := (download tools s a.response d).1
  match a.stop with
  | none => states.getLastD d
  | some k => (states.take (k + 1)).getLastD d

/-- The disk after a history of attempts -/
def run {B : Type} (tools : Tools B) (s : DataSet) (d : Disk B) (as : List (Attempt B)) : Disk B :=
  as.foldl (after tools s) d

/-- Utilities/datasets.py L123-135 (`checkAndDownload`): all datasets in order, until one raises. `server` answers by dataset. -/
def checkAll {B : Type} (tools : Tools B) : List (DataSet × Option (List B)) → Disk B → Disk B × Outcome
  | [], d => (d, .done)
  | (s, r) :: rest, d =>
    match download tools s r d with
    | (states, .raised) => (states.getLastD d, .raised)
    | (states, .done) => checkAll tools rest (states.getLastD d)

end Tcrm.Datasets
