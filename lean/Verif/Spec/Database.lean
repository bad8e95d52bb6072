import Verif.Model.Database
/-!
What the tables of the hazard database should satisfy, and what it means that a record belongs to a location.
-/
namespace Tcrm.Database
open Tcrm.GustFiles (Name)

/-- The primary key of the locations holds. -/
def LocKey (db : DB) : Prop := (db.locations.map (·.locId)).Nodup

/-- One record for each event, and one for each event and location. -/
structure Keys (db : DB) : Prop where
  loc : LocKey db
  event : (db.events.map (·.eventId)).Nodup
  wind : (db.winds.map fun w => (w.locId, w.eventId)).Nodup
  track : (db.tracks.map fun t => (t.locId, t.eventId)).Nodup

/-- `i` is the index of a grid point of the axis nearest to `v`. -/
def NearestPoint (axis : List ℚ) (v : ℚ) (i : ℕ) : Prop := ∃ x, axis[i]? = some x ∧ ∀ y ∈ axis, |x - v| ≤ |y - v|

/-- The location lies within the axes of the wind field. -/
def Covers (f : Field) (l : Location) : Prop :=
  (∃ a ∈ f.lon, ∃ b ∈ f.lon, a ≤ l.lon ∧ l.lon ≤ b) ∧ ∃ a ∈ f.lat, ∃ b ∈ f.lat, a ≤ l.lat ∧ l.lat ≤ b

end Tcrm.Database
