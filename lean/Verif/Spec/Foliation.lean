import Verif.Model.Foliation
import Verif.Spec.Stations
/-!
Specification vocabulary for the file of all wind fields.
-/
namespace Tcrm.Foliation
open Tcrm.Stations (Entry)

/-- The stored field `g` shows table `t` at its own coordinates: at the position of the file with the latitude
and longitude of an entry of the table that entry is stored, at the others nothing. -/
def Shows {K : Type} (lat lon gridy gridx : List ℚ) (t : List (List K)) (g : ℕ → ℕ → Option K) : Prop :=
  ∀ (j i : ℕ) (y x : ℚ), lat[j]? = some y → lon[i]? = some x →
    (∀ (k l : ℕ), gridy[k]? = some y → gridx[l]? = some x → ∃ v, Entry t k l v ∧ g j i = some v) ∧
    ((y ∉ gridy ∨ x ∉ gridx) → g j i = none)

/-- A table with one row per latitude and one column per longitude. -/
def Shape {K : Type} (ny nx : ℕ) (t : List (List K)) : Prop := t.length = ny ∧ ∀ row ∈ t, row.length = nx

/-- The coordinates are a non-empty part of an axis of the regional grid (hundredths of a degree). -/
def PartOf (axis : List ℤ) (g : List ℚ) : Prop :=
  ∃ p n, 0 < n ∧ p + n ≤ axis.length ∧ g = ((axis.drop p).take n).map fun x : ℤ => (x : ℚ) / 100

end Tcrm.Foliation
