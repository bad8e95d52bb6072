import Verif.Model.Folders
/-!
What it means for folders to be there.
-/
namespace Tcrm.Folders

/-- The root is a folder, and everything is in a folder. -/
structure Sound (fs : FS) : Prop where
  root : fs [] = some .dir
  parent : ∀ x p, fs (x :: p) ≠ none → fs p = some .dir

/-- The folder `d` or one of those above it -/
def Above (p d : Path) : Prop := p <:+ d

/-- Nothing but folders is at the path or above, and missing ones may be created. -/
def Possible (allowed : Path → Bool) (fs : FS) (d : Path) : Prop :=
  ∀ p, Above p d → fs p = some .dir ∨ (fs p = none ∧ allowed p = true)

end Tcrm.Folders
