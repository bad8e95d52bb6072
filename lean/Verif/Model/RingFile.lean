import Mathlib.Data.List.Basic
/-!
Writing polygons to a shape file, Utilities/shptools.py. The library `pyshp` is taken from its documentation and source (version 2): a
shape has all points in one list and the positions at which its parts begin; a polygon that is written is closed by repeating the first
point of a part that does not end with it.
-/
namespace Tcrm.RingFile

/-- A shape as read by `pyshp` -/
structure Shape (P : Type) where
  points : List P
  parts : List ℕ

inductive Err where
  | indexError
  deriving DecidableEq

/-- Utilities/shptools.py L147 and L230: `points[start : p - 1]` -/
def piece {P : Type} (points : List P) (start p : ℕ) : List P :=
  if p = 0 then points.dropLast.drop start else (points.take (p - 1)).drop start

/-- Utilities/shptools.py L145-149 and L228-232, with the positions `shp.parts[1:]`; the last part begins at the last position. -/
def newParts {P : Type} (points : List P) : ℕ → List ℕ → List (List P)
  | start, [] => [points.dropLast.drop start]
  | start, p :: rest => piece points start p :: newParts points p rest

/-- Utilities/shptools.py L226-235: the parts handed to `w.poly` -/
def polyParts {P : Type} (s : Shape P) : List (List P) :=
  if s.parts.length > 1 then newParts s.points 0 s.parts.tail else [s.points]

/-- `pyshp`, `Writer.poly`: a part is closed. -/
def close {P : Type} [DecidableEq P] (part : List P) : Except Err (List P) :=
  match part.head?, part.getLast? with
  | some a, some b => .ok (if a ≠ b then part ++ [a] else part)
  | _, _ => .error .indexError

/-- Utilities/shptools.py L224-236 (`shpWriteShapeFile`): the rings and the record of every feature written -/
def write {P R : Type} [DecidableEq P] (records : List R) (shapes : List (Shape P)) : Except Err (List (List (List P) × R)) :=
  (records.zip shapes).mapM fun x => do
    let rings ← (polyParts x.2).mapM close
    pure (rings, x.1)

end Tcrm.RingFile
