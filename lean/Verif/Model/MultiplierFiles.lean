import Verif.Model.Config
import Mathlib.Data.Real.Basic
/-!
Preparing the multipliers and the places of input and output, ProcessMultipliers/processMultipliers.py.
-/
namespace Tcrm.MultiplierFiles
open Tcrm.Config (Text split join)

/-- The value standing for missing data, ProcessMultipliers/processMultipliers.py L298-300 -/
def missing : ℝ := -9999

open Classical in
/-- `(a * b).data` for masked arrays with mask flags: numpy keeps the left factor under the mask. -/
noncomputable def maskedMul (a b : ℝ × Bool) : ℝ × Bool := (if a.2 || b.2 then a.1 else a.1 * b.1, a.2 || b.2)

open Classical in
/-- `ma.masked_values(d, -9999)` at one cell (its tolerance is left out) -/
noncomputable def masked (d : ℝ) : ℝ × Bool := (d, decide (d = missing))

/-- ProcessMultipliers/processMultipliers.py L298-314 (`combineDirections`) at one cell; Utilities/get_multipliers.py L203-216
is the same. -/
noncomputable def combine (terrain topographic shielding : ℝ) : ℝ :=
  (maskedMul (maskedMul (masked terrain) (masked topographic)) (masked shielding)).1

inductive Err where
  | valueError
  | indexError
  deriving DecidableEq

/-- ProcessMultipliers/processMultipliers.py L490-503 (`s3_path_segments_from_vsis3`): bucket, key and file name -/
def s3Segments (path : Text) : Except Err (Text × Text × Text) :=
  match split '/' path with
  | [] => .error .indexError
  | s0 :: rest =>
    if s0 ≠ [] then .error .valueError
    else match rest with
      | [] => .error .indexError
      | s1 :: rest =>
        if s1 ≠ "vsis3".toList then .error .valueError
        else match rest with
          | [] => .error .indexError
          | bucket :: key => .ok (bucket, join '/' key, (bucket :: key).getLastD [])

/-- ProcessMultipliers/processMultipliers.py L434-443 and L475-484: where a file of a directory is read from or
written to: bucket and key -/
def s3File (directory file : Text) : Except Err (Text × Text) :=
  let d := if directory.getLast? = some '/' then directory else directory ++ ['/']
  match s3Segments d with
  | .error e => .error e
  | .ok s => .ok (s.1, s.2.1 ++ file)

/-- An extent: `xMin`, `xMax`, `yMin`, `yMax` -/
structure Extent where
  xMin : ℚ
  xMax : ℚ
  yMin : ℚ
  yMax : ℚ

/-- ProcessMultipliers/processMultipliers.py L532-539: the extent of the multiplier image from its size and its
geotransform `gt` -/
def imageExtent (gt : Fin 6 → ℚ) (width height : ℕ) : Extent where
  xMin := gt 0
  yMin := gt 3 + width * gt 4 + height * gt 5
  xMax := gt 0 + width * gt 1 + height * gt 2
  yMax := gt 3

/-- ProcessMultipliers/processMultipliers.py L506-551 (`computeOutputExtentIfInvalid`); `gust` is the extent of the
coordinates in the gust file, `none` an extent without all four limits. -/
def effectiveExtent (given : Option Extent) (gust image : Extent) : Extent :=
  match given with
  | some e => e
  | none => ⟨max gust.xMin image.xMin, min gust.xMax image.xMax, max gust.yMin image.yMin, min gust.yMax image.yMax⟩

end Tcrm.MultiplierFiles
