import Verif.Model.Datasets
/-!
Vocabulary of C141.
-/
namespace Tcrm.Datasets

/-- `data` is what the bytes sent by the server contain. -/
def Unpacks {B : Type} (tools : Tools B) : Compression → List B → List B → Prop
  | .plain, sent, data => data = sent
  | .gz, sent, data => tools.gunzip sent = some data
  | .zip, _, _ => False

/-- A dataset with what the server answers and what it contains: the server is unreachable or sends all of it. -/
structure Item (B : Type) where
  dataset : DataSet
  response : Option (List B)
  data : List B

def Item.Good {B : Type} (tools : Tools B) (x : Item B) : Prop :=
  x.response = none ∨ ∃ sent, x.response = some sent ∧ Unpacks tools x.dataset.compression sent x.data

end Tcrm.Datasets
