import Verif.Model.Basic
import Mathlib.Algebra.Order.Field.Basic
/-
Point-in-polygon test used by `space.py` line 66 (`polygon_path.contains_points(points)` on the path
of line 50).  The function belongs to matplotlib, which is not in `/repo`; this is its published
even-odd crossing test (`point_in_path_impl` in `src/_path.h`, radius 0, path of straight segments).
The rest of the model takes an arbitrary test; the theorems of `Verif.Props.PointInPath` show that
this one meets what the others assume.
-/

set_option autoImplicit false

namespace TNS
variable {K : Type} [Field K] [LinearOrder K]

/-- One edge `a → b` of the path toggles the flag of the point `p`: the end points lie on different
sides of the horizontal through `p` and the crossing is not to the left of `p`.
`space.py` 66 (matplotlib `point_in_path`). -/
def crosses (p a b : K × K) : Bool :=
  (decide (p.2 ≤ a.2) != decide (p.2 ≤ b.2)) &&
    (decide ((b.1 - p.1) * (a.2 - b.2) ≤ (b.2 - p.2) * (a.1 - b.1)) == decide (p.2 ≤ b.2))

/-- The edges of the path, closed automatically. `space.py` 50, 66. -/
def pathEdges {α : Type} : List α → List (α × α)
  | [] => []
  | a :: l => List.zip (a :: l) (l ++ [a])

/-- `Path(vertices).contains_points([p])[0]` (used in `space.py` 50 and 66). -/
def containsPoint (pts : List (K × K)) (p : K × K) : Bool :=
  decide (3 ≤ pts.length) &&
    (pathEdges pts).foldl (fun f e => f ^^ crosses p e.1 e.2) false

end TNS
