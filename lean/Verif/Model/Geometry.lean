import Mathlib.Algebra.Order.Field.Basic
import Mathlib.Analysis.Real.Sqrt
/-!
Plane geometry, Utilities/Intersections.py, in exact arithmetic: an ordered field, the reals where a
square root is taken.
-/
namespace Tcrm.Geometry

/-- Utilities/Intersections.py L337-354 (`Point`) -/
@[ext] structure Point (K : Type) where
  x : K
  y : K
  deriving DecidableEq

inductive Status where
  | intersection
  | noIntersection
  | coincident
  | parallel
  | outside
  | inside
  | tangent
  deriving DecidableEq

/-- Utilities/Intersections.py L130-149 (`Intersection`) -/
structure Inter (K : Type) where
  status : Status
  points : List (Point K)
  deriving DecidableEq

section field
variable {K : Type} [Field K] [LinearOrder K]

/-- Utilities/Intersections.py L108-127 (`_isLeft`) -/
def isLeft (P0 P1 P2 : Point K) : K := (P1.x - P0.x) * (P2.y - P0.y) - (P2.x - P0.x) * (P1.y - P0.y)

/-- Edges from each vertex to the next. -/
def edges (V : List (Point K)) : List (Point K × Point K) := V.zip V.tail

/-- Utilities/Intersections.py L67-72: the edge is counted. -/
def cnCounts (P : Point K) (e : Point K × Point K) : Bool :=
  if (e.1.y ≤ P.y ∧ e.2.y > P.y) ∨ (e.1.y > P.y ∧ e.2.y ≤ P.y) then
    let vt := (P.y - e.1.y) / (e.2.y - e.1.y)
    decide (P.x < e.1.x + vt * (e.2.x - e.1.x))
  else false

/-- Utilities/Intersections.py L46-73 (`_cnPnPoly`) -/
def cnPnPoly (P : Point K) (V : List (Point K)) : Bool := (edges V).countP (cnCounts P) % 2 = 1

/-- Utilities/Intersections.py L98-104: contribution of an edge. The test for a downward crossing is
inside the branch for edges that start below, as in the code. -/
def wnAdd (P : Point K) (e : Point K × Point K) : ℤ :=
  if e.1.y ≤ P.y then
    if e.2.y > P.y then (if isLeft e.1 e.2 P > 0 then 1 else 0)
    else if e.2.y ≤ P.y then (if isLeft e.1 e.2 P < 0 then -1 else 0)
    else 0
  else 0

/-- Utilities/Intersections.py L76-105 (`_wnPnPoly`) -/
def wnPnPoly (P : Point K) (V : List (Point K)) : Bool := ((edges V).map (wnAdd P)).sum ≠ 0

/-- Utilities/Intersections.py L30-43 (`inLand`) -/
def inLand (P : Point K) (V : List (Point K)) : Bool := cnPnPoly P V && wnPnPoly P V

/-- Utilities/Intersections.py L252-262 (`lerp`) -/
def lerp (a1 a2 : Point K) (u : K) : Point K := ⟨a1.x + (a2.x - a1.x) * u, a1.y + (a2.y - a1.y) * u⟩

/-- Utilities/Intersections.py L264-303 (`LineLine`) -/
def lineLine (a1 a2 b1 b2 : Point K) : Inter K :=
  let ua_t := (b2.x - b1.x) * (a1.y - b1.y) - (b2.y - b1.y) * (a1.x - b1.x)
  let ub_t := (a2.x - a1.x) * (a1.y - b1.y) - (a2.y - a1.y) * (a1.x - b1.x)
  let u_b := (b2.y - b1.y) * (a2.x - a1.x) - (b2.x - b1.x) * (a2.y - a1.y)
  if u_b ≠ 0 then
    let ua := ua_t / u_b
    let ub := ub_t / u_b
    if 0 ≤ ua ∧ ua ≤ 1 ∧ 0 ≤ ub ∧ ub ≤ 1 then
      ⟨.intersection, [⟨a1.x + ua * (a2.x - a1.x), a1.y + ua * (a2.y - a1.y)⟩]⟩
    else ⟨.noIntersection, []⟩
  else if ua_t = 0 ∨ ub_t = 0 then ⟨.coincident, []⟩
  else ⟨.parallel, []⟩

/-- Result for a polygon: status and the lists of points, one for each edge recorded. -/
structure PolyInter (K : Type) where
  status : Status
  points : List (List (Point K))

/-- Utilities/Intersections.py L305-334 (`LinePolygon`) for a list of polygons. -/
def linePolygon (a1 a2 : Point K) (polys : List (List (Point K))) : PolyInter K :=
  let points := polys.flatMap fun p => (edges p).map fun e => (lineLine a1 a2 e.1 e.2).points
  ⟨if points.length > 0 then .intersection else .noIntersection, points⟩

end field

/-- Utilities/Intersections.py L165-213 (`CircleLine`) -/
noncomputable def circleLine (c : Point ℝ) (r : ℝ) (a1 a2 : Point ℝ) : Inter ℝ :=
  let a := (a2.x - a1.x) * (a2.x - a1.x) + (a2.y - a1.y) * (a2.y - a1.y)
  let b := 2 * ((a2.x - a1.x) * (a1.x - c.x) + (a2.y - a1.y) * (a1.y - c.y))
  let cc := c.x * c.x + c.y * c.y + a1.x * a1.x + a1.y * a1.y - 2 * (c.x * a1.x + c.y * a1.y) - r * r
  let deter := b * b - 4 * a * cc
  if deter < 0 then ⟨.outside, []⟩
  else if deter = 0 then ⟨.tangent, []⟩
  else
    let e := Real.sqrt deter
    let u1 := (-b + e) / (2 * a)
    let u2 := (-b - e) / (2 * a)
    if (u1 < 0 ∨ u1 > 1) ∧ (u2 < 0 ∨ u2 > 1) then
      if (u1 < 0 ∧ u2 < 0) ∨ (u1 > 1 ∧ u2 > 1) then ⟨.outside, []⟩ else ⟨.inside, []⟩
    else
      ⟨.intersection, (if 0 ≤ u1 ∧ u1 ≤ 1 then [lerp a1 a2 u1] else []) ++
        (if 0 ≤ u2 ∧ u2 ≤ 1 then [lerp a1 a2 u2] else [])⟩

/-- Vertices of the edges in Utilities/Intersections.py L233-235: `p[i]` and `p[i - 1]` for `i` in
`range(len(p) - 1)`; index -1 is the last vertex. -/
def backEdges (p : List (Point ℝ)) : List (Point ℝ × Point ℝ) :=
  (List.range (p.length - 1)).map fun i =>
    (p.getD i ⟨0, 0⟩, p.getD (if i = 0 then p.length - 1 else i - 1) ⟨0, 0⟩)

/-- Utilities/Intersections.py L215-250 (`CirclePolygon`) for a list of polygons (L231-239); the other
case (L241-247) goes through `edges`. -/
noncomputable def circlePolygon (c : Point ℝ) (r : ℝ) (polys : List (List (Point ℝ))) : PolyInter ℝ :=
  let hits := polys.flatMap fun p => (backEdges p).filterMap fun e =>
    if (circleLine c r e.1 e.2).status = .intersection then some (circleLine c r e.1 e.2).points else none
  ⟨if hits.length > 0 then .intersection else .noIntersection, hits⟩

/-- Utilities/Intersections.py L241-250 (`CirclePolygon`) for one polygon that is not a list. -/
noncomputable def circlePolygon1 (c : Point ℝ) (r : ℝ) (p : List (Point ℝ)) : PolyInter ℝ :=
  let hits := (edges p).filterMap fun e =>
    if (circleLine c r e.1 e.2).status = .intersection then some (circleLine c r e.1 e.2).points else none
  ⟨if hits.length > 0 then .intersection else .noIntersection, hits⟩

end Tcrm.Geometry
