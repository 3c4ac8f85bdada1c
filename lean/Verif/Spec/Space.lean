import Mathlib.Algebra.Order.Field.Basic
/-
Specification vocabulary for the spatial sampling: lattice, square cells.
-/

set_option autoImplicit false

namespace TNS.Spec
variable {K : Type} [Field K] [LinearOrder K]

/-- The lattice of side `L` through `(oX, oZ)`. -/
def Lattice (oX oZ L : K) (p : K × K) : Prop :=
  ∃ i j : ℤ, p.1 = oX + L * (i : K) ∧ p.2 = oZ + L * (j : K)

/-- The open square cell of side `L` around `p`. -/
def OpenCell (L : K) (p q : K × K) : Prop :=
  p.1 - L / 2 < q.1 ∧ q.1 < p.1 + L / 2 ∧ p.2 - L / 2 < q.2 ∧ q.2 < p.2 + L / 2

/-- The half-open square cell of side `L` around `p`. -/
def Cell (L : K) (p q : K × K) : Prop :=
  p.1 - L / 2 ≤ q.1 ∧ q.1 < p.1 + L / 2 ∧ p.2 - L / 2 ≤ q.2 ∧ q.2 < p.2 + L / 2

/-- `inside` accepts no point outside the bounding box of the polygon's vertices: every accepted
point has a vertex on each side of it (this is what is assumed of matplotlib's
`Path.contains_points`). -/
def WithinBox (xs zs : List K) (inside : K × K → Bool) : Prop :=
  ∀ p, inside p = true → (∃ a ∈ xs, a ≤ p.1) ∧ (∃ b ∈ xs, p.1 ≤ b) ∧
    (∃ c ∈ zs, c ≤ p.2) ∧ (∃ d ∈ zs, p.2 ≤ d)

end TNS.Spec
