import Verif.Model.Config
import Verif.Model.Pipeline
/-!
The command line programs `tcrm.py` and `tcevent.py`: the configuration file, the log file and the
exit status. Paths are texts; `/` separates directories.
-/
namespace Tcrm.Startup

open Tcrm.Config (Text Entries)
open Tcrm.Pipeline (Stage Actions calls enabled)

/-- Where a path leads from a directory. -/
def resolve (dir path : Text) : Text := if path.head? = some '/' then path else dir ++ '/' :: path

/-- The environment of a process: working directory, directory of the program, and files. -/
structure World where
  cwd : Text
  root : Text
  files : Text → Option Entries

/-- How a stage ends: regularly, by an exception, or by `sys.exit(n)`. -/
inductive Ending where
  | done
  | raises
  | exits (n : ℕ)
  deriving DecidableEq

/-- What can be seen of a run. -/
structure Run where
  /-- the file the settings come from, if one was read -/
  config : Option Text
  /-- the stages begun -/
  begun : List Stage
  /-- an exception was written to the log -/
  logged : Bool
  /-- exit status of the process -/
  status : ℕ
  deriving DecidableEq

/-- tcrm.py L515-569: the stages that are switched on, in order, up to the first that does not end
regularly. (On one process.) -/
def perform (ending : Stage → Ending) : List Stage → List Stage × Ending
  | [] => ([], .done)
  | s :: ss =>
    match ending s with
    | .done => (s :: (perform ending ss).1, (perform ending ss).2)
    | e => ([s], e)

/-- tcrm.py L642-658 (and tcevent.py L264-276): exceptions of `main` are caught and logged unless the
option `--debug` is given; `SystemExit` is not an `Exception`. -/
def conclude (config : Option Text) (debug : Bool) (r : List Stage × Ending) : Run :=
  match r.2 with
  | .done => ⟨config, r.1, false, 0⟩
  | .raises => if debug then ⟨config, r.1, false, 1⟩ else ⟨config, r.1, true, 0⟩
  | .exits n => ⟨config, r.1, false, n⟩

/-- Utilities/config.py L288-292: the file to read; `none` is the ValueError for a file that does not
exist. Without a name the defaults are used. -/
def configFile (files : Text → Option Entries) (dir : Text) : Option Text → Option (Option Text)
  | none => some none
  | some name => if (files (resolve dir name)).isSome then some (some (resolve dir name)) else none

/-- tcrm.py L574-658 (`startup`): the directory is changed (L592) before the configuration is read
(L595). `actions` is what the settings say, `level` whether the level of the log exists
(Utilities/files.py L242); an exception at this point is not caught: status 1. -/
def tcrm (w : World) (actions : Option Text → Actions) (level : Option Text → Bool)
    (ending : Stage → Ending) (name : Option Text) (debug : Bool) : Run :=
  match configFile w.files w.root name with
  | none => ⟨none, [], false, 1⟩
  | some c =>
    if level c then conclude c debug (perform ending (calls.filter (enabled (actions c))))
    else ⟨c, [], false, 1⟩

/-- tcevent.py L215-276 (`startup`): the configuration is read (L232) before the directory is changed
(L235); later reads do nothing, as there is one parser which reads once (Utilities/config.py L290-294,
L334-336). `main` is one stage here. -/
def tcevent (w : World) (level : Option Text → Bool) (ending : Ending) (name : Option Text)
    (debug : Bool) : Run :=
  match configFile w.files w.cwd name with
  | none => ⟨none, [], false, 1⟩
  | some c => if level c then conclude c debug ([], ending) else ⟨c, [], false, 1⟩

/-! ### Log files -/

/-- The decimal numeral of a rank. -/
def numeral (r : ℕ) : Text := (Nat.toDigits 10 r)

/-- tcrm.py L622-624 -/
def rankLog (size rank : ℕ) (logfile : Text) : Text :=
  if size > 1 ∧ rank > 0 then logfile ++ '-' :: numeral rank else logfile

/-- The last component of a path begins after this many characters. -/
def dirLength (p : Text) : ℕ := p.length - (p.reverse.takeWhile (· ≠ '/')).length

/-- `os.path.splitext`: the extension begins at the last full stop of the last component, unless only
full stops come before it there. -/
def splitext (p : Text) : Text × Text :=
  let base := p.drop (dirLength p)
  let ext := (base.reverse.takeWhile (· ≠ '.')).reverse
  let stem := base.take (base.length - ext.length - 1)
  if '.' ∈ base ∧ stem.any (· ≠ '.') then (p.take (p.length - ext.length - 1), '.' :: ext) else (p, [])

/-- Utilities/files.py L220-225: the name with the date. -/
def dated (date : Text) (p : Text) : Text :=
  (splitext p).1 ++ '.' :: date ++ '.' :: (splitext p).2.dropWhile (· = '.')

/-- The log file of a process. (Directories that cannot be created,
tcrm.py L601-605 and Utilities/files.py L227-235, are left out.) -/
def logName (datestamp : Bool) (date : Text) (size rank : ℕ) (logfile : Text) : Text :=
  if datestamp then dated date (rankLog size rank logfile) else rankLog size rank logfile

end Tcrm.Startup
