import Verif.Model.CurveRuns
import Verif.Spec.Database
/-!
What the curves of a run should be.
-/
namespace Tcrm.CurveRuns.Spec
open Tcrm.Database

/-- The location lies in the domain. -/
def InDomain (d : Domain) (l : Location) : Prop := d.xMin ≤ l.lon ∧ l.lon ≤ d.xMax ∧ d.yMin ≤ l.lat ∧ l.lat ≤ d.yMax

/-- The location lies within the axes. -/
def Within (lon lat : List ℚ) (l : Location) : Prop :=
  (∃ a ∈ lon, ∃ b ∈ lon, a ≤ l.lon ∧ l.lon ≤ b) ∧ ∃ a ∈ lat, ∃ b ∈ lat, a ≤ l.lat ∧ l.lat ≤ b

/-- `v` is the gust of the wind field at a grid point nearest to the location. -/
def GustAt (l : Location) (f : Field) (v : Num) : Prop :=
  ∃ i j, NearestPoint f.lon l.lon i ∧ NearestPoint f.lat l.lat j ∧ v = f.vmax j i

/-- The curve of a location: levels at a grid point nearest to it, which has levels, and the gusts of all the events there. -/
def CurveOf (h : HazardFile) (fields : List Field) (l : Location) (c : Curve) : Prop :=
  c.locId = l.locId ∧ NearestPoint h.lon l.lon c.i ∧ NearestPoint h.lat l.lat c.j ∧ h.null c.j c.i = false ∧
    List.Forall₂ (GustAt l) fields c.events

/-- A run whose output are the wind fields of these events, on grids that cover all locations of its domain, with at most as many
events as days -/
structure Good (stored : List Location) (r : Run) (events : List ((ℕ × ℕ) × Field)) : Prop where
  files : r.output.fields = events.map fun e => (GustFiles.gustName e.1, some e.2)
  covers : ∀ e ∈ events, ∀ l ∈ stored, InDomain r.domain l → Within e.2.lon e.2.lat l
  hazard : ∀ l ∈ stored, InDomain r.domain l → Within r.hazard.lon r.hazard.lat l
  few : (events.length : ℚ) ≤ 365 * r.numsim

end Tcrm.CurveRuns.Spec
