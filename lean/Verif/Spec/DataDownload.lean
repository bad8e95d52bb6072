import Verif.Model.DataDownload
import Verif.Spec.Datasets
/-!
Vocabulary of C207.
-/
namespace Tcrm.DataDownload.Spec
open Tcrm.Datasets

/-- The text lists these names: they stand with commas, and nothing else, between them. -/
def Lists (text : Name) (names : List Name) : Prop :=
  names ≠ [] ∧ (∀ n ∈ names, ',' ∉ n) ∧ text = List.intercalate [','] names

/-- The settings have a section for the dataset `n`, with its address and directory. -/
def Described (get : Settings) (n url path : Name) : Prop :=
  get n "URL".toList = some url ∧ get n "path".toList = some path

/-- Directory and file name of the dataset `n` with this section: C141 says which. -/
def place (get : Settings) (n url path : Name) : Name × Name := (make url path (get n "filename".toList)).file

/-- The content of this dataset if the server sends `sent` -/
def Holds {B : Type} (tools : Tools B) (get : Settings) (n url path : Name) (sent data : List B) : Prop :=
  Unpacks tools (make url path (get n "filename".toList)).compression sent data

end Tcrm.DataDownload.Spec
