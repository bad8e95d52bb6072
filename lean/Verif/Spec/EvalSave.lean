import Verif.Model.EvalSave
import Verif.Spec.Evaluate
/-!
What a reader finds in a file of maps.
-/
namespace Tcrm.EvalSave
open Tcrm.NcGrid Tcrm.Evaluate

variable {T K : Type}

/-- Whoever reads the field `name` and the axes "lat" and "lon" of the file finds a grid with a row for each latitude and
a column for each longitude; row `i` has the latitude `y`, column `j` the longitude `x`, and the value there is `v`. -/
def ReadsAt (f : File T K) (name : String) (i j : ℕ) (y x v : K) : Prop :=
  ∃ lats lons data, ncGetDims f "lat" = .ok lats ∧ ncGetDims f "lon" = .ok lons ∧
    ncGetData f name = .ok ⟨[lats.length, lons.length], data⟩ ∧ data.length = lats.length * lons.length ∧
    lats[i]? = some y ∧ lons[j]? = some x ∧ data[i * lons.length + j]? = some v

/-- The field is labelled as a percentile. -/
def Labelled (f : File T K) (name : String) (p : ℕ) : Prop := ∃ v, ncGetVar f name = .ok v ∧ v.atts.percentile = some p

end Tcrm.EvalSave
