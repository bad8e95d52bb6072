import Verif.Model.TrackInterp
/-!
Specification of dates for C183.
-/
namespace Tcrm.Times64

open Tcrm.TrackInterp

/-- A date with an hour and a minute, not after the year 9999. -/
def Valid (d : Stamp) : Prop := d.ordinal < 2 ^ 22 ∧ d.hour < 24 ∧ d.minute < 60 ∧ d.second = 0

/-- The time of day is a multiple of 45 minutes. -/
def OnGrid (d : Stamp) : Prop := 45 ∣ 60 * d.hour + d.minute

end Tcrm.Times64
