import Verif.Model.RawTiles
/-!
Vocabulary of C210.
-/
namespace Tcrm.RawTiles.Spec

/-- `got` are the files of the list that come before the first one that cannot be fetched. -/
def UntilFirstFailure (there : Text → Prop) (list got : List Text) : Prop :=
  (∀ f ∈ got, there f) ∧ (got = list ∨ ∃ f rest, list = got ++ f :: rest ∧ ¬ there f)

/-- No thread can act. -/
def Stuck {n : ℕ} (there : Fin n → Text → Prop) (p : State n) : Prop := ∀ q, ¬ Step there p q

end Tcrm.RawTiles.Spec
