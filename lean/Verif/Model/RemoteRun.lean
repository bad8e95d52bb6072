import Verif.Model.MultiplierFiles
/-!
Input and output of the calculation of local wind in remote storage, ProcessMultipliers/processMultipliers.py.
-/
namespace Tcrm.RemoteRun
open Tcrm.Config (Text)
open Tcrm.MultiplierFiles (s3Segments s3File)

inductive Err where
  | path (e : MultiplierFiles.Err)
  | clientError
  | noDirectory
  | noFile
  | calculation
  deriving DecidableEq

/-- What is stored: remotely by bucket and key, locally by the path as written, and the directories that exist, by their
paths as written. Contents are of any type. -/
structure World (C : Type) where
  remote : Text × Text → Option C
  files : Text → Option C
  dirs : Text → Bool

/-- The settings `Output:Working_dir`, `Input:Gust_file` and `Output:Temporary_working_dir`,
ProcessMultipliers/processMultipliers.py L1157-1158 and L181-182 -/
structure Settings where
  workingDir : Text
  gustFile : Text
  temporary : Option Text

/-- `path.startswith('/vsis3/')` -/
def isRemote (path : Text) : Bool := "/vsis3/".toList.isPrefixOf path

/-- `os.path.join` with a second part that does not begin with a slash -/
def pjoin (a b : Text) : Text := if a = [] ∨ a.getLast? = some '/' then a ++ b else a ++ '/' :: b

/-- ProcessMultipliers/processMultipliers.py L404-423 (`check_if_working_dir_in_s3`): the local directory, and the place to
upload to; `fresh` is the name of the new temporary directory, if one is made. -/
def workingDir (s : Settings) (fresh : Text) : Text × Option Text :=
  if isRemote s.workingDir then
    let t := s.temporary.getD fresh
    (if t.getLast? = some '/' then t else t ++ ['/'], some s.workingDir)
  else (s.workingDir, none)

/-- The directories after L404-423: a new temporary directory exists (under its name with and without a slash). -/
def makeTemporary {C : Type} (s : Settings) (fresh : Text) (w : World C) : World C :=
  if isRemote s.workingDir ∧ s.temporary = none then
    { w with dirs := fun d => if d = fresh ∨ d = fresh ++ ['/'] then true else w.dirs d }
  else w

/-- Writing a local file -/
def put {C : Type} (w : World C) (path : Text) (c : C) : World C :=
  { w with files := fun p => if p = path then some c else w.files p }

/-- ProcessMultipliers/processMultipliers.py L390-402 and L448-465 (`check_if_gust_file_from_s3`, `download_from_s3`): the
path of the gust file to read. -/
def fetchGust {C : Type} (w : World C) (gust dir : Text) : Except Err (World C × Text) :=
  if isRemote gust then
    match s3Segments gust with
    | .error e => .error (.path e)
    | .ok (bucket, key, file) =>
      match w.remote (bucket, key) with
      | none => .error .clientError
      | some c => if w.dirs dir then .ok (put w (pjoin dir file) c, pjoin dir file) else .error .noDirectory
  else .ok (w, gust)

/-- ProcessMultipliers/processMultipliers.py L202-204 (`checkOutputFolders`), the working directory itself -/
def makeDirs {C : Type} (w : World C) (dir : Text) : World C :=
  { w with dirs := fun d => if d = dir then true else w.dirs d }

/-- ProcessMultipliers/processMultipliers.py L1245-1246 -/
def outputs : List Text := ["local_wind.tif", "region_wind.tif", "vv_prj.tif", "uu_prj.tif", "bear_prj.tif",
  "gust_prj.tif"].map String.toList

/-- ProcessMultipliers/processMultipliers.py L811-928 and L930-1059 (`processMult`, `processMultV2`), the files written; their
contents are those `results` gives for the content of the gust file. -/
def writeOutputs {C : Type} (w : World C) (dir : Text) (results : Text → C) : World C :=
  outputs.foldl (fun w f => put w (pjoin dir f) (results f)) w

/-- ProcessMultipliers/processMultipliers.py L439-443: the files one by one; `denied` are the places that cannot be
written. The state reached is returned also on failure. -/
def uploadAll {C : Type} (denied : Text × Text → Bool) (dir path : Text) : List Text → World C → World C × Option Err
  | [], w => (w, none)
  | f :: rest, w =>
    match s3File path f with
    | .error e => (w, some (.path e))
    | .ok place =>
      match w.files (pjoin dir f) with
      | none => (w, some .noFile)
      | some c =>
        if denied place then (w, some .clientError)
        else uploadAll denied dir path rest { w with remote := fun p => if p = place then some c else w.remote p }

/-- ProcessMultipliers/processMultipliers.py L1184-1246 (`main`): the steps with remote storage. The result is the state
reached and the exception, if any; `run` logs the exception and ends (L1173-1181). `calculate` is the calculation of the
output files from the gust file: `none` if it fails. -/
def main {C : Type} (s : Settings) (fresh : Text) (calculate : Option C → Option (Text → C)) (denied : Text × Text → Bool)
    (w : World C) : World C × Option Err :=
  let (dir, upload) := workingDir s fresh
  let w := makeTemporary s fresh w
  match fetchGust w s.gustFile dir with
  | .error e => (w, some e)
  | .ok (w, gust) =>
    let w := makeDirs w dir
    match calculate (w.files gust) with
    | none => (w, some .calculation)
    | some results =>
      let w := writeOutputs w dir results
      match upload with
      | none => (w, none)
      | some path => uploadAll denied dir path outputs w

end Tcrm.RemoteRun
