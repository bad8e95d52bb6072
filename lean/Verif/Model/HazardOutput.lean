import Verif.Model.Tiles
import Verif.Model.Dispatch
/-!
Storing tile results in the output arrays of the hazard calculation.
-/
namespace Tcrm.Hazard
open Tcrm.Tiles

variable {V : Type}

/-- hazard/__init__.py L363-376 (and L414-426): shift the limits by `imin`, `jmin` and
assign the tile's array to the slice `[ymin:ymax, xmin:xmax]`. One output array
(`loc`, `scale`, `shp`, one return period of `Rp` …) is a function of row and column;
the tile's array is a function of row and column inside the tile. All of them are
stored in the same way, so `V` may be taken to be the tuple of all of them. -/
def store (imin jmin : Int) (out : Int → Int → V) (l : Limits) (r : Int → Int → V) :
    Int → Int → V := fun y x =>
  if l.y1 - jmin ≤ y ∧ y < l.y2 - jmin ∧ l.x1 - imin ≤ x ∧ x < l.x2 - imin then
    r (y - (l.y1 - jmin)) (x - (l.x1 - imin))
  else out y x

/-- Storing a sequence of results, in order, into arrays created by `np.zeros`
(hazard/__init__.py L243-249), here the constant `zero`. -/
def storeAll (imin jmin : Int) (zero : V) (ws : List (Limits × (Int → Int → V))) :
    Int → Int → V :=
  ws.foldl (fun out p => store imin jmin out p.1 p.2) fun _ _ => zero

end Tcrm.Hazard
