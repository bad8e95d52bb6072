import Verif.Model.Database
import Mathlib.Data.List.Sort
import Mathlib.Order.Basic
import Mathlib.Data.Char
import Mathlib.Data.List.Lex
/-!
Filling the table of events from the folder of wind fields (database/__init__.py L261-304) and listing it
(database/queries.py L232-250). As in Model/Database.lean; the columns that hold dates, versions and the track file are left
out.
-/
namespace Tcrm.Database
open Tcrm.GustFiles (Name)

/-- A connection: the events that are committed, and those that this connection sees -/
structure Session where
  saved : List Event
  working : List Event
  deriving DecidableEq

/-- Errors of the call: of a file, or of the database -/
inductive TableErr where
  | file (e : Err)
  | integrity
  deriving DecidableEq

/-- database/__init__.py L281-294: the record of the `n`th file -/
def eventRecord (content : Name → Option Field) (n : ℕ) (file : Name) : Except Err Event :=
  match eventIdOf file with
  | .error e => .error e
  | .ok eventId =>
    match content file with
    | none => .error .attributeError
    | some f => .ok ⟨n, eventId, file, f.maxWind, f.minPressure⟩

/-- database/__init__.py L281-294: the records of the files, numbered from `n` -/
def eventRecords (content : Name → Option Field) : ℕ → List Name → Except Err (List Event)
  | _, [] => .ok []
  | n, file :: files =>
    match eventRecord content n file with
    | .error e => .error e
    | .ok r =>
      match eventRecords content (n + 1) files with
      | .error e => .error e
      | .ok rs => .ok (r :: rs)

/-- `executemany` with INSERT: rows before one whose number is known are inserted. -/
def insertMany : List Event → List Event → List Event × Bool
  | [], table => (table, true)
  | e :: es, table =>
    if table.any fun x => x.number = e.number then (table, false) else insertMany es (table ++ [e])

/-- database/__init__.py L261-304 (`generateEventTable`); `names` are the regular files of the folder, in the order of
`os.listdir`. After an error nothing is committed or undone (L299-302). -/
def generateEventTable (names : List Name) (content : Name → Option Field) (s : Session) : Session × Option TableErr :=
  match eventRecords content 0 (names.insertionSort fun a b => a ≤ b) with
  | .error e => (s, some (.file e))
  | .ok es =>
    let r := insertMany es s.working
    if r.2 then (⟨r.1, r.1⟩, none) else (⟨s.saved, r.1⟩, some .integrity)

/-- Any later commit of the connection -/
def commit (s : Session) : Session := ⟨s.working, s.working⟩

/-- database/queries.py L232-250 (`selectEvents`) -/
def selectEvents (s : Session) (res : List Event) : Prop := OrderedBy (fun e => e.maxWind) s.working res

end Tcrm.Database
