import Verif.Spec.SdefLimit
import Verif.Spec.RoundedMean
/-
Specification vocabulary for C115: grids without gaps.
-/

set_option autoImplicit false

namespace TNS.Spec
noncomputable section

/-- From each of the cells `cs` (centres) the next column outwards, and the next cell upwards in its column, are at most 5/4
of a cell side `L` away. -/
structure NoGaps (L : ℝ) (cs : List (ℝ × ℝ)) : Prop where
  columns : ∀ p ∈ cs, ∀ x' ∈ cs.map Prod.fst, p.1 < x' → (∀ y ∈ cs.map Prod.fst, y ≤ p.1 ∨ x' ≤ y) → x' ≤ p.1 + 5 / 4 * L
  rows : ∀ p ∈ cs, ∀ z', (p.1, z') ∈ cs → p.2 < z' → (∀ y, (p.1, y) ∈ cs → y ≤ p.2 ∨ z' ≤ y) → z' ≤ p.2 + 5 / 4 * L

end
end TNS.Spec
