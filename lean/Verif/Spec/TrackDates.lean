import Verif.Model.TrackInterp
/-!
Specification for C188: the instants of the records of an interpolated track.
-/
namespace Tcrm.TrackDates

open Tcrm.TrackInterp

/-- The instant `t` hours after the date `d`, in microseconds since the start of 1970 (the day of number 719163). -/
def instant (d : Stamp) (t : ℚ) : ℚ :=
  86400000000 * ((d.ordinal : ℚ) - 719163) + 60000000 * (60 * d.hour + d.minute) + 3600000000 * t

/-- Hours and minutes of a day, `total` minutes after the start of the day of number zero. -/
def Shows (day hour minute total : ℤ) : Prop :=
  (0 ≤ hour ∧ hour < 24) ∧ (0 ≤ minute ∧ minute < 60) ∧ 1440 * day + 60 * hour + minute = total

end Tcrm.TrackDates
