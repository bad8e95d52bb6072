import Verif.Model.NcGrid
/-!
What it means for gridded data to be saved, in terms of the data alone.
-/
namespace Tcrm.NcGrid

/-- An axis to be saved: name, type and values -/
structure Axis (T K : Type) where
  name : String
  type : T
  values : List K

/-- A field to be saved: name, type, names of its axes, significant digits to be kept (all if `none`), array of its
values (`none`: no data), and attributes -/
structure Grid (T K : Type) where
  name : String
  type : T
  axes : List String
  digits : Option ℕ
  values : Option (Arr K)
  atts : Atts K := {}

variable {T K : Type}

/-- The axis has a name and a length -/
def Has (axes : List (Axis T K)) (n : String) (l : ℕ) : Prop := ∃ a ∈ axes, a.name = n ∧ a.values.length = l

/-- The axes have different names; so have the fields, which have other names than the axes; the axes of every
field are among the axes, and the shape of its array is that of its axes. -/
structure Consistent (axes : List (Axis T K)) (grids : List (Grid T K)) : Prop where
  names : (axes.map (·.name) ++ grids.map (·.name)).Nodup
  known : ∀ g ∈ grids, ∀ n ∈ g.axes, ∃ a ∈ axes, a.name = n
  shapes : ∀ g ∈ grids, ∀ a, g.values = some a → List.Forall₂ (Has axes) g.axes a.shape

/-- The dictionary of an axis -/
def Axis.dict (a : Axis T K) : DimSpec T K := ⟨some a.name, some a.values, some a.type, some {}⟩

/-- The dictionary of a field -/
def Grid.dict (g : Grid T K) : VarSpec T K :=
  ⟨some g.name, some g.axes, some g.values, some g.type, some g.atts, g.digits⟩

/-- A number of a field as it is kept: converted to its type and rounded to its digits -/
def kept (lib : Lib T K) (g : Grid T K) (x : K) : K :=
  match g.digits with
  | none => lib.cast g.type x
  | some d => lib.quantize d (lib.cast g.type x)

/-- A dictionary of a dimension that lacks an entry -/
def DimSpec.Lacks (d : DimSpec T K) : Prop :=
  d.name = none ∨ d.values = none ∨ d.dtype = none ∨ d.atts = none

/-- A dictionary of a variable that lacks an entry -/
def VarSpec.Lacks (v : VarSpec T K) : Prop :=
  v.name = none ∨ v.dims = none ∨ v.values = none ∨ v.dtype = none ∨ v.atts = none

/-- An array of the given shape -/
def IsArr (a : Arr K) (shape : List ℕ) : Prop := a.shape = shape ∧ a.data.length = shape.prod

/-- The results of the hazard calculation: grids over the (non-empty) axes. -/
structure Shaped (h : Hazard K) : Prop where
  years : 0 < h.years.length
  lat : 0 < h.lat.length
  lon : 0 < h.lon.length
  loc : IsArr h.loc [h.lat.length, h.lon.length]
  scale : IsArr h.scale [h.lat.length, h.lon.length]
  shp : IsArr h.shp [h.lat.length, h.lon.length]
  rp : IsArr h.rp [h.years.length, h.lat.length, h.lon.length]
  rpUpper : IsArr h.rpUpper [h.years.length, h.lat.length, h.lon.length]
  rpLower : IsArr h.rpLower [h.years.length, h.lat.length, h.lon.length]

/-- The level for period `k` in row `y` and column `x` -/
def Hazard.level (h : Hazard K) (k y x : ℕ) : Option K := h.rp.data[(k * h.lat.length + y) * h.lon.length + x]?

/-- What a map shows in row `y` and column `x` (`none` outside the map, `some none` if nothing is drawn there) -/
def Map.shown (m : Map K) (y x : ℕ) : Option (Option K) := m.values[y * m.lon.length + x]?

end Tcrm.NcGrid
