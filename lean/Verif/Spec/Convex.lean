import Mathlib.Data.Real.Basic
/-
Convex polygons, by orientation of triples of vertices.
-/

set_option autoImplicit false

namespace TNS.Spec

/-- Twice the signed area of the triangle `a b c` (positive: anticlockwise). -/
def orient (a b c : ℝ × ℝ) : ℝ := (b.1 - a.1) * (c.2 - a.2) - (c.1 - a.1) * (b.2 - a.2)

/-- The vertices, in the given order, never turn clockwise: every three of them taken in order are
anticlockwise (or on a line). -/
def ConvexPolygon (pts : List (ℝ × ℝ)) : Prop :=
  ∀ (i j k : ℕ) (a b c : ℝ × ℝ), i < j → j < k → pts[i]? = some a → pts[j]? = some b →
    pts[k]? = some c → 0 ≤ orient a b c

end TNS.Spec
