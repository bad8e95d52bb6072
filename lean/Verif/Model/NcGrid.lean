import Verif.Model.Units
import Mathlib.Algebra.Order.Field.Basic
/-!
Gridded files (Utilities/nctools.py), the hazard file (hazard/__init__.py, `saveHazard`) and the maps drawn from it
(PlotInterface/AutoPlotHazard.py).  Arrays are lists in row-major order with a shape.  The library netCDF4 is taken to
keep what is assigned to a variable; types of numbers are conversions (`cast`, and `quantize` for variables with a
least significant digit).  Of the attributes only the missing value and those of `Atts` are kept.
-/
namespace Tcrm.NcGrid

/-- OSError, KeyError, ValueError, and exceptions raised by the library -/
inductive Err where
  | io
  | key
  | value
  | library
  deriving DecidableEq

/-- A numpy array, row by row -/
structure Arr (K : Type) where
  shape : List ℕ
  data : List K

/-- The library: conversion to a type, rounding to a significant digit, and what is stored (or raised) when an
array of another shape is assigned to a variable (not modelled). -/
structure Lib (T K : Type) where
  cast : T → K → K
  quantize : ℕ → K → K
  broadcast : List ℕ → Arr K → Except Err (List K)

/-- Attributes of a variable: `actual_range` and `percentile` -/
structure Atts (K : Type) where
  range : Option (K × K) := none
  percentile : Option ℕ := none

/-- Dictionary describing a dimension, any key of which may be missing -/
structure DimSpec (T K : Type) where
  name : Option String
  values : Option (List K)
  dtype : Option T
  atts : Option (Atts K)

/-- Dictionary describing a variable; its values may be `None`. -/
structure VarSpec (T K : Type) where
  name : Option String
  dims : Option (List String)
  values : Option (Option (Arr K))
  dtype : Option T
  atts : Option (Atts K)
  lsd : Option ℕ := none

/-- A variable in a file -/
structure Var (T K : Type) where
  name : String
  dtype : T
  dims : List String
  fill : Option K
  data : List K
  atts : Atts K

/-- A file -/
structure File (T K : Type) where
  dims : List (String × ℕ)
  vars : List (Var T K)

variable {T K : Type}

/-- The sizes of dimensions given by name; `none` if one does not exist. -/
def sizes (f : File T K) (dims : List String) : Option (List ℕ) := dims.mapM fun d => f.dims.lookup d

/-- `createVariable` of the library, with the values assigned afterwards (`none`: nothing assigned, the missing value
throughout) and `setncatts`.  A name in use and an unknown dimension raise. -/
def createVar (lib : Lib T K) (f : File T K) (name : String) (dtype : T) (dims : List String) (nodata : Option K)
    (default : K) (values : Option (Arr K)) (lsd : Option ℕ) (atts : Atts K) : File T K × Option Err :=
  if f.vars.any (·.name == name) then (f, some .library)
  else
    match sizes f dims with
    | none => (f, some .key)
    | some shape =>
      let put := fun (data : List K) => (⟨f.dims, f.vars ++ [⟨name, dtype, dims, nodata, data, atts⟩]⟩ : File T K)
      let blank := List.replicate shape.prod (nodata.getD default)
      match values with
      | none => (put blank, none)
      | some a =>
        let a' : Arr K := ⟨a.shape, a.data.map (lib.cast dtype)⟩
        let round := fun x => match lsd with | none => x | some d => lib.quantize d x
        if a'.shape = shape then (put (a'.data.map round), none)
        else
          match lib.broadcast shape a' with
          | .error e => (put blank, some e)
          | .ok l => (put (l.map round), none)

/-- Utilities/nctools.py L201-219 (`ncCreateDim`) with L221-253 (`ncCreateVar`, which assigns nothing here).  A
dimension that exists raises. -/
def ncCreateDim (lib : Lib T K) (default : K) (f : File T K) (name : String) (values : List K) (dtype : T)
    (atts : Atts K) : File T K × Option Err :=
  if (f.dims.lookup name).isSome then (f, some .library)
  else createVar lib ⟨f.dims ++ [(name, values.length)], f.vars⟩ name dtype [name] none default
    (some ⟨[values.length], values⟩) none atts

/-- Utilities/nctools.py L344-352: the dimensions in order, up to the first exception -/
def addDims (lib : Lib T K) (default : K) : File T K → List (DimSpec T K) → File T K × Option Err
  | f, [] => (f, none)
  | f, d :: ds =>
    match d.name, d.values, d.dtype, d.atts with
    | some n, some v, some t, some a =>
      match ncCreateDim lib default f n v t a with
      | (f', none) => addDims lib default f' ds
      | r => r
    | _, _, _, _ => (f, some .key)

/-- Utilities/nctools.py L353-379: the variables in order, up to the first exception.  `lsd` is the argument of
`ncSaveGrid`, used for variables without their own; the missing value is converted to the type of the variable. -/
def addVars (lib : Lib T K) (default nodata : K) (lsd : Option ℕ) (writedata : Bool) :
    File T K → List (VarSpec T K) → File T K × Option Err
  | f, [] => (f, none)
  | f, v :: vs =>
    match v.name, v.dims, v.values, v.dtype, v.atts with
    | some n, some ds, some vals, some t, some a =>
      if (vals.map fun x => decide (ds.length ≠ x.shape.length)) = some true then (f, some .value)
      else
        match createVar lib f n t ds (some (lib.cast t nodata)) default (if writedata then vals else none)
            (v.lsd.orElse fun _ => lsd) a with
        | (f', none) => addVars lib default nodata lsd writedata f' vs
        | r => r
    | _, _, _, _, _ => (f, some .key)

/-- The files of a directory -/
abbrev Disk (T K : Type) := String → Option (File T K)

/-- Utilities/nctools.py L255-395 (`ncSaveGrid`): the file is opened, erasing an earlier one, before the arguments are
looked at; what was written before an exception stays.  `canOpen` is false if the file cannot be created.  Global
attributes are left out. -/
def ncSaveGrid (lib : Lib T K) (default : K) (canOpen : Bool) (disk : Disk T K) (path : String)
    (dims : List (DimSpec T K)) (vars : List (VarSpec T K)) (nodata : K) (lsd : Option ℕ) (writedata : Bool) :
    Disk T K × Option Err :=
  if canOpen then
    let r := match addDims lib default ⟨[], []⟩ dims with
      | (f, none) => addVars lib default nodata lsd writedata f vars
      | r => r
    (Function.update disk path (some r.1), r.2)
  else (disk, some .io)

/-- Utilities/nctools.py L26-44 (`ncLoadFile`) -/
def ncLoadFile (disk : Disk T K) (path : String) : Except Err (File T K) :=
  match disk path with
  | none => .error .io
  | some f => .ok f

/-- Utilities/nctools.py L146-164 (`ncGetVar`), `ncobj.variables[name]` -/
def ncGetVar (f : File T K) (name : String) : Except Err (Var T K) :=
  match f.vars.find? (·.name == name) with
  | none => .error .key
  | some v => .ok v

/-- Utilities/nctools.py L87-108 (`ncGetDims`); the conversion to `float` is exact. -/
def ncGetDims (f : File T K) (name : String) : Except Err (List K) := (ncGetVar f name).map (·.data)

/-- Utilities/nctools.py L110-144 (`ncGetData`): missing values keep their number. -/
def ncGetData (f : File T K) (name : String) : Except Err (Arr K) :=
  match ncGetVar f name with
  | .error e => .error e
  | .ok v =>
    match sizes f v.dims with
    | none => .error .library
    | some s => .ok ⟨s, v.data⟩

/-! ### The hazard file -/

/-- What the hazard calculation holds when it ends (hazard/__init__.py L195-262) -/
structure Hazard (K : Type) where
  years : List K
  lat : List K
  lon : List K
  nodata : K
  loc : Arr K
  scale : Arr K
  shp : Arr K
  rp : Arr K
  rpUpper : Arr K
  rpLower : Arr K

/-- The types 'f', 'd' and 'i' -/
structure Types (T : Type) where
  f : T
  d : T
  i : T

/-- `np.min` and `np.max` of an array (ValueError if it is empty) -/
def rangeOf [LinearOrder K] (a : Arr K) : Option (K × K) :=
  match a.data.min?, a.data.max? with
  | some l, some h => some (l, h)
  | _, _ => none

/-- hazard/__init__.py L445-481 -/
def hazardDims (ty : Types T) (h : Hazard K) : List (DimSpec T K) :=
  [⟨some "ari", some h.years, some ty.f, some {}⟩,
   ⟨some "lat", some h.lat, some ty.f, some {}⟩,
   ⟨some "lon", some h.lon, some ty.d, some {}⟩]

/-- hazard/__init__.py L484-566 -/
def hazardVars [LinearOrder K] (ty : Types T) (h : Hazard K) : List (VarSpec T K) :=
  [⟨some "loc", some ["lat", "lon"], some (some h.loc), some ty.f, some { range := rangeOf h.loc }, none⟩,
   ⟨some "scale", some ["lat", "lon"], some (some h.scale), some ty.f, some {}, none⟩,
   ⟨some "shp", some ["lat", "lon"], some (some h.shp), some ty.f, some {}, some 5⟩,
   ⟨some "wspd", some ["ari", "lat", "lon"], some (some h.rp), some ty.f, some { range := rangeOf h.rp }, none⟩,
   ⟨some "wspdupper", some ["ari", "lat", "lon"], some (some h.rpUpper), some ty.f, some { percentile := some 95 },
     none⟩,
   ⟨some "wspdlower", some ["ari", "lat", "lon"], some (some h.rpLower), some ty.f, some { percentile := some 5 },
     none⟩,
   ⟨some "crs", some [], some none, some ty.i, some {}, none⟩]

/-- hazard/__init__.py L433-576 (`saveHazard`) -/
def saveHazard [LinearOrder K] (lib : Lib T K) (ty : Types T) (default : K) (canOpen : Bool) (disk : Disk T K)
    (path : String) (h : Hazard K) : Disk T K × Option Err :=
  if (rangeOf h.loc).isNone ∨ (rangeOf h.rp).isNone then (disk, some .value)
  else ncSaveGrid lib default canOpen disk path (hazardDims ty h) (hazardVars ty h) h.nodata none true

/-- PlotInterface/AutoPlotHazard.py L145-175 (`loadFile`): axes, and the data with missing ones masked (`none`) -/
def loadFile [DecidableEq K] (disk : Disk T K) (path : String) (varname : String) :
    Except Err (List K × List K × List K × Arr (Option K)) := do
  let f ← ncLoadFile disk path
  let lon ← ncGetDims f "lon"
  let lat ← ncGetDims f "lat"
  let years ← ncGetDims f "ari"
  let data ← ncGetData f varname
  let v ← ncGetVar f varname
  match v.fill with
  | none => .error .key
  | some mv => return (lon, lat, years, ⟨data.shape, data.data.map fun x => if x = mv then none else some x⟩)

/-- A map: the axes drawn and the value at each point (`none` where nothing is drawn), row by row -/
structure Map (K : Type) where
  year : K
  lon : List K
  lat : List K
  values : List (Option K)

/-- PlotInterface/AutoPlotHazard.py L98-130 (`plotMap`) without smoothing: one map for each period.  `conv` is
`metutils.convert` to the units of the plot. -/
def plotMaps [Field K] [LinearOrder K] (conv : K → K) (disk : Disk T K) (path : String) : Except Err (List (Map K)) :=
  match loadFile disk path "wspd" with
  | .error e => .error e
  | .ok (lon, lat, years, data) =>
    match lon.min? with
    | none => .error .value
    | some l =>
      let lon' := if 180 < l then lon.map (· - 360) else lon
      let n := lat.length * lon.length
      .ok (years.mapIdx fun k y =>
        ⟨y, lon', lat, ((data.data.drop (k * n)).take n).map (Option.map conv)⟩)

end Tcrm.NcGrid
