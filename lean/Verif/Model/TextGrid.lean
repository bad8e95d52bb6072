import Verif.Model.Grid
import Mathlib.Data.List.MinMax
/-!
Text grids: writing (Utilities/grid.py) and the export of wind fields and hazard maps (Utilities/nc2txt.py).  Reading is in
`Model/Grid.lean`.  Numbers are rational; `fmt` is the effect of printing a value and reading it back.
-/
namespace Tcrm.TextGrid

open Tcrm.Grid (Header)

/-- Exceptions -/
inductive Err where
  | nameError
  | valueError
  | indexError
  deriving DecidableEq, Repr

/-- A grid of a netCDF file: `data` has a row for each latitude -/
structure Nc where
  lats : List ℚ
  lons : List ℚ
  data : List (List ℚ)

/-- Utilities/grid.py L36-103 (`grdSave`, geographic coordinates, a name as argument, not gzipped): header and lines of the
file. `present` says whether there is a file of this name; then `file(…)` raises NameError (L71). -/
def grdSave (fmt : ℚ → ℚ) (present : Bool) (data : List (List ℚ)) (lon lat : List ℚ) (delta nodata : ℚ) :
    Except Err (Header × List (List ℚ)) :=
  if present then .error .nameError
  else match lon.min?, lat.min? with
    | some x, some y => .ok (⟨lon.length, lat.length, x, y, delta, nodata⟩, data.map fun row => row.map fmt)
    | _, _ => .error .valueError

/-- Utilities/nc2txt.py L78-104: export of a variable without record dimension. One longitude only raises IndexError. -/
def nc2txt (fmt : ℚ → ℚ) (present : Bool) (g : Nc) (mv : ℚ) : Except Err (Header × List (List ℚ)) :=
  match g.lons with
  | x₀ :: x₁ :: _ =>
    let delta := x₁ - x₀
    let lon := g.lons.map fun x => x - delta / 2
    let lat := g.lats.map fun y => y - delta / 2
    grdSave fmt present g.data.reverse lon lat delta mv
  | _ => .error .indexError

end Tcrm.TextGrid
