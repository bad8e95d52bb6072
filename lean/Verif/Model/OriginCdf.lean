import Verif.Model.Cdf
import Verif.Model.NcGrid
/-!
The distribution function of cyclone origins: `SamplingOrigin.cdf` and `KDEOrigin.generateCdf`.
-/
namespace Tcrm.OriginCdf

open Tcrm.Cdf

variable {K : Type} [Field K] [LinearOrder K]

/-- Python's `l[i]`: negative indices count from the end; `none` is an IndexError. -/
def pyGet {A : Type} (l : List A) (i : ℤ) : Option A :=
  if 0 ≤ i then l[i.toNat]? else if -i ≤ l.length then l[(l.length + i).toNat]? else none

/-- StatInterface/SamplingOrigin.py L143-157 (`cdf`), from the tables of `_calculateCDF`. -/
def cdfAt (x y : List K) (cdfX : List K) (cdfY : List (List K)) (xx yy : K) : Except Err (K × K) :=
  let xi : ℤ := (searchsorted x xx : ℤ) - 1
  let yi : ℤ := (searchsorted y yy : ℤ) - 1
  match pyGet cdfX xi, (pyGet cdfY xi).bind fun row => pyGet row yi with
  | some a, some b => .ok (a, b)
  | _, _ => .error .indexError

/-- Construction of the sampler (StatInterface/SamplingOrigin.py L42-69) followed by `cdf`. -/
def distribution (x y : List K) (z : Grid K) (xx yy : K) : Except Err (K × K) :=
  match originCdf x y z with
  | .error e => .error e
  | .ok (cx, cy) => cdfAt x y cx cy xx yy

/-- StatInterface/KDEOrigin.py L206-208: the values of the estimated distribution function `F` at the points of the grid,
in a flat array. -/
def gridCdf {N : Type} (F : N → N → N) (x y : List N) : NcGrid.Arr N :=
  ⟨[y.length * x.length], y.flatMap fun b => x.map fun a => F a b⟩

/-- StatInterface/KDEOrigin.py L210-246: saving it (`save=True`), with the default missing value `nodata`. -/
def saveCdf {T N : Type} (lib : NcGrid.Lib T N) (ty : NcGrid.Types T) (default nodata : N) (disk : NcGrid.Disk T N)
    (path : String) (F : N → N → N) (x y : List N) : NcGrid.Disk T N × Option NcGrid.Err :=
  NcGrid.ncSaveGrid lib default true disk path
    [⟨some "lat", some y, some ty.f, some {}⟩, ⟨some "lon", some x, some ty.f, some {}⟩]
    [⟨some "gcdf", some ["lat", "lon"], some (some (gridCdf F x y)), some ty.f, some {}, none⟩] nodata none true

/-- StatInterface/KDEOrigin.py L130-168: the density `gpdf` is saved likewise, with the values in rows of the grid. -/
def savePdf {T N : Type} (lib : NcGrid.Lib T N) (ty : NcGrid.Types T) (default nodata : N) (disk : NcGrid.Disk T N)
    (path : String) (f : N → N → N) (x y : List N) : NcGrid.Disk T N × Option NcGrid.Err :=
  NcGrid.ncSaveGrid lib default true disk path
    [⟨some "lat", some y, some ty.f, some {}⟩, ⟨some "lon", some x, some ty.f, some {}⟩]
    [⟨some "gpdf", some ["lat", "lon"], some (some ⟨[y.length, x.length], y.flatMap fun b => x.map fun a => f a b⟩),
      some ty.f, some {}, none⟩] nodata none true

end Tcrm.OriginCdf
