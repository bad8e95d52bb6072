import Verif.Model.Startup
import Verif.Spec.Pipeline
/-!
Which file a user means.
-/
namespace Tcrm.Startup

open Tcrm.Config (Text Entries)

/-- The file a user means by a name: an absolute path, or one from the directory they are in. -/
def meant (w : World) (name : Text) : Text := if name.head? = some '/' then name else w.cwd ++ '/' :: name

end Tcrm.Startup
