import Verif.Model.Binary64
import Verif.Model.TrackInterp
/-!
Times of the records of a track in double precision: Evaluate/interpolateTracks.py L79-97. The new times are whole
multiples of the time step, as in the exact model (for time steps of whole hours they are exact in double precision);
the interpolated values are not rounded.
-/
namespace Tcrm.Times64

open Tcrm.TrackInterp Tcrm.Binary64

/-- Evaluate/interpolateTracks.py L79-80, `d.toordinal() + (d.hour + d.minute/60.)/24.0`, each operation rounded -/
def dayTime64 (d : Stamp) : ℚ := fl (d.ordinal + fl (fl (d.hour + fl (d.minute / 60)) / 24))

/-- Evaluate/interpolateTracks.py L94, `24.0*(time_ - time_[0])` -/
def elapsed64 (obs : List Obs) : List ℚ :=
  match obs with
  | [] => []
  | o :: _ => obs.map fun p => fl (24 * fl (dayTime64 p.date - dayTime64 o.date))

/-- Evaluate/interpolateTracks.py L53-244 (`interpolate`), with times in double precision -/
def interpolate64 (leg : ℚ × ℚ → ℚ × ℚ → ℚ × ℚ) (kind : Kind) (obs : List Obs) (δ : ℚ) : Except Err (List Rec) :=
  interpolateAt leg kind (elapsed64 obs) obs δ

end Tcrm.Times64
