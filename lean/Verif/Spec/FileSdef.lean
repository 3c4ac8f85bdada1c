import Verif.Spec.FileLimit
/-
Specification for C106: where the bins of an SDEF file end.
-/

set_option autoImplicit false

namespace TNS.Spec

/-- The upper edge (cm) of the bin of an entry `a` (m) among the entries `l` (m), for cells of side `L` (m): the lower edge of
the next larger entry, or half a side above `a` if `a` is the largest. -/
def UpperEdge (l : List ℝ) (L a e : ℝ) : Prop :=
  (∃ b ∈ l, a < b ∧ (∀ d ∈ l, a < d → b ≤ d) ∧ e = 100 * (b - L / 2)) ∨ ((∀ b ∈ l, b ≤ a) ∧ e = 100 * (a + L / 2))

end TNS.Spec
