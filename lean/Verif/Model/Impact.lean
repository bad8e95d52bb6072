import Verif.Model.GustFiles
import Verif.Model.Defaults
/-!
The impact stage of an event (impact/__init__.py, called at tcevent.py L206-207). `hazimp` is a program of its own: a
parameter. Names are relative to the folders `windfield` and `impact`; the working directory has no characters special to
`glob`.
-/
namespace Tcrm.Impact

open Tcrm.GustFiles Tcrm.Config

/-- What is handed to hazimp: the gust file, the exposure data and the file to be written (impact/__init__.py L23-30). -/
structure Call where
  gust : Name
  exposure : Text
  output : Name
  deriving DecidableEq

inductive Outcome where
  | done | failed | config (e : Err)
  deriving DecidableEq

/-- `gust.*.nc`, impact/__init__.py L49 -/
def gustPattern : List Pat := "gust.".toList.map .lit ++ [.star] ++ ".nc".toList.map .lit

/-- impact/__init__.py L63-64: the last three characters are replaced. -/
def outputName (n : Name) : Name := n.take (n.length - 3) ++ ['.', 'c', 's', 'v']

/-- The files of the folder `impact`, by name -/
abbrev Folder (R : Type) := Name → Option R

/-- impact/__init__.py L62-65: one call after another; the first that fails raises (L43-44). `hazimp c` is the file
written, none if it fails, in which case nothing is written (simplification). The calls made are recorded. -/
def calls {R : Type} (hazimp : Call → Option R) (exposure : Text) :
    List Name → Folder R → Folder R × List Call × Outcome
  | [], d => (d, [], .done)
  | n :: l, d =>
    let c : Call := ⟨n, exposure, outputName n⟩
    match hazimp c with
    | none => (d, [c], .failed)
    | some r =>
      let q := calls hazimp exposure l (fun m => if m = c.output then some r else d m)
      (q.1, c :: q.2.1, q.2.2)

/-- impact/__init__.py L46-65 (`run`): `listing` are the files of the folder `windfield` in the order of the listing. -/
def run {R : Type} (hazimp : Call → Option R) (exposure : Text) (listing : List Name) (d : Folder R) :
    Folder R × List Call × Outcome :=
  calls hazimp exposure (listing.filter fun n => fnmatch gustPattern n) d

/-- impact/__init__.py L68-77 (`run_optional`): whether there is anything to do. `getboolean` with a fallback for an option
that is not there. -/
def wanted (p : Parser) : Except Err Bool :=
  match p.table (Defaults.t "Actions") with
  | some opts =>
    match opts (lower (Defaults.t "ExecuteImpact")) with
    | none => .ok false
    | some (.str x) => getBoolean x
    | some _ => .error .attributeError
  | none => .ok (p.table (Defaults.t "Impact")).isSome

/-- impact/__init__.py L68-77 (`run_optional`) -/
def runOptional {R : Type} (p : Parser) (hazimp : Call → Option R) (listing : List Name) (d : Folder R) :
    Folder R × List Call × Outcome :=
  match wanted p with
  | .error e => (d, [], .config e)
  | .ok false => (d, [], .done)
  | .ok true =>
    match getOption p (Defaults.t "Impact") (Defaults.t "Exposure") with
    | .error e => (d, [], .config e)
    | .ok (.str x) => run hazimp x listing d
    | .ok _ => (d, [], .config .typeError)

/-- The configuration of the event: the file over the defaults (tcevent.py L180-181) -/
def configured (file : Entries) : Parser :=
  (readFile (fun _ => .good file) (newParser Defaults.defaults) (some (Defaults.t "tcevent.ini"))).1

end Tcrm.Impact
