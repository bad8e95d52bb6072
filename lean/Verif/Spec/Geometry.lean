import Verif.Model.Geometry
/-!
Segments, circles, crossings.
-/
namespace Tcrm.Geometry

section field
variable {K : Type} [Field K] [LinearOrder K]

/-- The point a fraction `t` of the way from `a` to `b`. -/
def along (a b : Point K) (t : K) : Point K := ⟨(1 - t) * a.x + t * b.x, (1 - t) * a.y + t * b.y⟩

/-- Points of the segment from `a` to `b`. -/
def OnSegment (a b p : Point K) : Prop := ∃ t : K, 0 ≤ t ∧ t ≤ 1 ∧ p = along a b t

/-- Points of the line through `a` and `b`. -/
def OnLine (a b p : Point K) : Prop := ∃ t : K, p = along a b t

/-- The edge crosses the horizontal ray from `P` to the right. The upper end point of an edge does not
belong to it (so that a vertex on the ray is not counted twice). -/
def CrossesRay (P : Point K) (e : Point K × Point K) : Prop :=
  ((e.1.y ≤ P.y ∧ P.y < e.2.y) ∨ (e.2.y ≤ P.y ∧ P.y < e.1.y)) ∧
    ∃ q, OnSegment e.1 e.2 q ∧ q.y = P.y ∧ P.x < q.x

/-- Twice the signed area of the triangle `a b c`: positive if `c` is to the left of the line from `a` to `b`. -/
def turn (a b c : Point K) : K := (b.x - a.x) * (c.y - a.y) - (b.y - a.y) * (c.x - a.x)

/-- The vertices, in this order, are those of a strictly convex polygon traversed counter-clockwise: any three of them, in order,
turn left. -/
def ConvexCCW (V : List (Point K)) : Prop := ∀ a b c, [a, b, c].Sublist V → 0 < turn a b c

/-- `a` and `b` are neighbours in the list, in this order. -/
def Consecutive (V : List (Point K)) (a b : Point K) : Prop := ∃ l r, V = l ++ a :: b :: r

end field

/-- Squared distance. -/
def dist2 (p q : Point ℝ) : ℝ := (p.x - q.x) ^ 2 + (p.y - q.y) ^ 2

end Tcrm.Geometry
