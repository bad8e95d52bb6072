import Verif.Model.Grid
import Verif.Model.CellStats
import Verif.Model.TrackGen
/-!
The land mask: TrackGenerator/trackLandfall.py (`LandfallDecay`) in the simulation and `_lonLat` of
DataProcess/DataProcess.py in the calibration.
-/
namespace Tcrm.LandMask
open Tcrm.Grid Tcrm.Extract

/-- TrackGenerator/trackLandfall.py L58-71: the fields of `LandfallDecay` (the mask, the time over land, the time step). -/
structure Decay where
  mask : Grd
  tol : ℚ
  dt : ℚ

/-- `sampleGrid(lon, lat) > 0` (TrackGenerator/trackLandfall.py L85, DataProcess/DataProcess.py L379); comparison with
NaN is false. -/
def positive (mask : Grd) (lon lat : ℚ) : Except Err Bool :=
  match sampleGrid mask lon lat with
  | .error e => .error e
  | .ok none => .ok false
  | .ok (some v) => .ok (decide (v > 0))

/-- TrackGenerator/trackLandfall.py L73-92 (`onLand`): the answer and the object afterwards. -/
def onLand (s : Decay) (lon lat : ℚ) : Except Err (Bool × Decay) :=
  match positive s.mask lon lat with
  | .error e => .error e
  | .ok true => .ok (true, { s with tol := s.tol + s.dt })
  | .ok false => .ok (false, { s with tol := 0 })

/-- The answers to a sequence of calls of `onLand`, and the object afterwards. -/
def asked (s : Decay) : List (ℚ × ℚ) → Except Err (List Bool × Decay)
  | [] => .ok ([], s)
  | p :: l =>
    match onLand s p.1 p.2 with
    | .error e => .error e
    | .ok (b, s') =>
      match asked s' l with
      | .error e => .error e
      | .ok (bs, s'') => .ok (b :: bs, s'')

/-- DataProcess/DataProcess.py L377-380: the flags of the observations. -/
def flags (mask : Grd) (pos : List (ℚ × ℚ)) : Except Err (List ℚ) :=
  pos.mapM fun p => do if (← positive mask p.1 p.2) then pure 1 else pure 0

/-- DataProcess/DataProcess.py L410-412 (`all_lon_lat`) and StatInterface/generateStats.py L136-144, which reads it
together with the values of a variable: the observations of the statistics.  Positions are exact (the file has two
decimals). -/
def observations (mask : Grd) (raw : List (ℚ × ℚ × ℚ)) : Except Err (List Obs) := do
  let fs ← flags mask (raw.map fun o => (o.1, o.2.1))
  pure (List.zipWith (fun o f => ⟨o.1, o.2.1, f, o.2.2⟩) raw fs)

end Tcrm.LandMask
