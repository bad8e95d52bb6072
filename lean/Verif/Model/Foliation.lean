import Verif.Model.Stations
/-!
The file with the wind fields of all time steps: wind/writer.py. Coordinates are exact rationals. The netCDF file
is a table of fields; positions never written hold the fill value (`none`).
-/
namespace Tcrm.Foliation
open Tcrm.Stations (Layer at2)

inductive Err where
  | valueError
  | indexError
  deriving DecidableEq

/-- Rounding to the nearest integer, halves to the even one: Python `round` and `np.rint`. -/
def rint (x : ℚ) : ℤ :=
  if x - ⌊x⌋ < 1 / 2 then ⌊x⌋
  else if x - ⌊x⌋ > 1 / 2 then ⌊x⌋ + 1
  else if ⌊x⌋ % 2 = 0 then ⌊x⌋ else ⌊x⌋ + 1

/-- `np.linspace(start, stop, n)` for `n ≥ 0` -/
def linspace (start stop : ℚ) (n : ℕ) : List ℚ :=
  (List.range n).map fun k : ℕ => if n = 1 then start else start + (k : ℚ) * ((stop - start) / ((n : ℚ) - 1))

/-- wind/writer.py L62-63 (`series`); a negative number of points is a ValueError. -/
def series (start stop inc : ℚ) : Except Err (List ℚ) :=
  if rint ((stop - start) / inc) + 1 < 0 then .error .valueError
  else .ok (linspace start stop (rint ((stop - start) / inc) + 1).toNat)

/-- The open file: axes, the parameters of the map from coordinates to indices (L68-71: corner and resolution),
and for each time the four fields. -/
structure File (K : Type) where
  lat : List ℚ
  lon : List ℚ
  x0 : ℚ
  y0 : ℚ
  res : ℚ
  times : List ℚ
  speed : List (ℕ → ℕ → Option K)
  ux : List (ℕ → ℕ → Option K)
  uy : List (ℕ → ℕ → Option K)
  prs : List (ℕ → ℕ → Option K)

/-- wind/writer.py L42-104 (`__init__`). A resolution of 0 is a division by zero, here an error. -/
def create {K : Type} (gl : Windfield.Limits) (resolution margin : ℚ) : Except Err (File K) :=
  if resolution = 0 then .error .valueError
  else match series (gl.yMin - margin) (gl.yMax + margin) resolution,
      series (gl.xMin - margin) (gl.xMax + margin) resolution with
    | .ok lat, .ok lon => .ok ⟨lat, lon, gl.xMin - margin, gl.yMin - margin, resolution, [], [], [], [], []⟩
    | _, _ => .error .valueError

/-- Writing of a table into rows `a` to `b` and columns `c` to `d` of a new time step (L123-126). The table has to
have the shape of the window, and the window has to be inside the file; the repetition of single rows or columns
is not modelled. -/
def place {K : Type} (nlat nlon : ℕ) (a b c d : ℤ) (t : List (List K)) : Except Err (ℕ → ℕ → Option K) :=
  if 0 ≤ a ∧ 0 ≤ c ∧ b < nlat ∧ d < nlon ∧ (t.length : ℤ) = b + 1 - a ∧ ∀ row ∈ t, (row.length : ℤ) = d + 1 - c then
    .ok fun j i =>
      if a ≤ j ∧ (j : ℤ) ≤ b ∧ c ≤ i ∧ (i : ℤ) ≤ d then
        match at2 t (j - a.toNat) (i - c.toNat) with
        | .ok x => some x
        | .error _ => none
      else none
  else .error .valueError

/-- wind/writer.py L106-129 (`__call__`), without the inner call-back. -/
def write {K : Type} (l : Layer K) (f : File K) : Except Err (File K) :=
  match l.gridx.head?, l.gridx.getLast?, l.gridy.head?, l.gridy.getLast? with
  | some xa, some xb, some ya, some yb =>
    let c := rint ((xa - f.x0) / f.res)
    let d := rint ((xb - f.x0) / f.res)
    let a := rint ((ya - f.y0) / f.res)
    let b := rint ((yb - f.y0) / f.res)
    match place f.lat.length f.lon.length a b c d l.spd, place f.lat.length f.lon.length a b c d l.uu,
        place f.lat.length f.lon.length a b c d l.vv, place f.lat.length f.lon.length a b c d l.prs with
    | .ok s, .ok u, .ok v, .ok p => .ok { f with
        times := f.times ++ [l.time], speed := f.speed ++ [s], ux := f.ux ++ [u], uy := f.uy ++ [v], prs := f.prs ++ [p] }
    | _, _, _, _ => .error .valueError
  | _, _, _, _ => .error .indexError

/-- The calls for all time steps. -/
def writeAll {K : Type} : List (Layer K) → File K → Except Err (File K)
  | [], f => .ok f
  | l :: ls, f => match write l f with
    | .error e => .error e
    | .ok f' => writeAll ls f'

end Tcrm.Foliation
