import Verif.Model.RoundedSpace

/-
Specification vocabulary for the rounded grid.
-/

set_option autoImplicit false

namespace TNS.Spec

/-- `r` lies on the polygonal line through `pts`. -/
def OnLine (pts : List (ℝ × ℝ)) (r : ℝ × ℝ) : Prop :=
  ∃ (i : ℕ) (h : i + 1 < pts.length) (t : ℝ), 0 ≤ t ∧ t ≤ 1 ∧
    r.1 = pts[i].1 + t * (pts[i + 1].1 - pts[i].1) ∧ r.2 = pts[i].2 + t * (pts[i + 1].2 - pts[i].2)

/-- The points differ by at most `ε` along both axes. -/
def CloseTo (ε : ℝ) (p q : ℝ × ℝ) : Prop := |p.1 - q.1| ≤ ε ∧ |p.2 - q.2| ≤ ε

/-- The polygonal line passes within `ε` of `q`, along both axes. -/
def NearLine (pts : List (ℝ × ℝ)) (ε : ℝ) (q : ℝ × ℝ) : Prop := ∃ r, OnLine pts r ∧ CloseTo ε r q

/-- Accuracy of grid coordinates: `u` is the unit roundoff, `M` the largest coordinate of the polygon,
`L` the cell side length. -/
noncomputable def gridTol (u M L : ℝ) : ℝ := 3 * (2 * M / L + 20) * (u * (M + 3 * L))

/-- What is assumed of the plasma and of the arithmetic: relative error `u` per operation; a closed
polygon with coordinates up to `M`; a magnetic axis in its bounding box; cells that are large compared
with the rounding of coordinates. -/
structure Resolved (A : Arith) (u : ℝ) (pts : List (ℝ × ℝ)) (oX oZ L M : ℝ) : Prop where
  u_nonneg : 0 ≤ u
  u_small : u ≤ 1 / 1000
  rel : ∀ x, |A.rd x - x| ≤ u * |x|
  closed : pts ≠ [] ∧ pts.head? = pts.getLast?
  long : 3 ≤ pts.length
  bound : ∀ v ∈ pts, |v.1| ≤ M ∧ |v.2| ≤ M
  axis : containsPoint pts (oX, oZ) = true
  side : 0 < L
  resolved : gridTol u M L ≤ L / 8

end TNS.Spec
