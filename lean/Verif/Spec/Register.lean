import Verif.Model.Register
/-!
The register as a history of records.
-/
namespace Tcrm.Register

open Config (Text)

/-- The records made in a history. -/
def recorded : List Op → List Rec
  | [] => []
  | .record x :: ops => x :: recorded ops
  | _ :: ops => recorded ops

/-- The last record of a file. -/
def lastRec (l : List Rec) (directory name : Text) : Option Rec :=
  l.reverse.find? fun x => x.directory = directory ∧ x.name = name

/-- No separator and no line break in any field. -/
def Clean (x : Rec) : Prop := ∀ t ∈ [x.directory, x.name, x.moddate, x.md5], '|' ∉ t ∧ '\n' ∉ t ∧ '\r' ∉ t

/-- Number of separators in a text. -/
def bars (t : Text) : ℕ := t.count '|'

end Tcrm.Register
