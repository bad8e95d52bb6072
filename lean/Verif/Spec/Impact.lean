import Verif.Model.Impact
import Verif.Spec.Defaults
/-!
Vocabulary for C175.
-/
namespace Tcrm.Impact

open Tcrm.GustFiles Tcrm.Config

/-- The name of a wind-field file: `gust.`, something, `.nc`. -/
def IsGust (n : Name) (stem : List Char) : Prop :=
  n = ['g', 'u', 's', 't', '.'] ++ stem ++ ['.', 'n', 'c']

/-- What is asked for the wind-field file of a stem: the impact file has the same stem. -/
def callFor (exposure : Text) (stem : List Char) : Call :=
  ⟨['g', 'u', 's', 't', '.'] ++ stem ++ ['.', 'n', 'c'], exposure, ['g', 'u', 's', 't', '.'] ++ stem ++ ['.', 'c', 's', 'v']⟩

end Tcrm.Impact
