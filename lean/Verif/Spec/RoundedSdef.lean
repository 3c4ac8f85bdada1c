import Verif.Spec.RoundedOpenMC
import Verif.Spec.Mcnp
/-
Specification vocabulary for the accuracy of the SDEF files.
-/

set_option autoImplicit false

namespace TNS.Spec

/-- The cells come column by column from the inside, each column from below, and neighbours are at least half a
cell apart. -/
def CellsApart (s : Source ℝ) : Prop :=
  (List.zip s.x s.z).Pairwise fun p q =>
    p.1 + s.cellSideLength / 2 ≤ q.1 ∨ (p.1 = q.1 ∧ p.2 + s.cellSideLength / 2 ≤ q.2)

/-- The printed edge `e` (cm) is the coordinate `y` (m) of the edge of a cell of side `L` centred at `c`, to five
digits of the distance of the cell. -/
def EdgeClose (L c e y : ℝ) : Prop := |e - 100 * y| ≤ 51 / 10 ^ 7 * (100 * (|c| + L))

/-- The bin `b` (cm) stands for the cell with centre `(x, z)` (m) and strength `σ` of a source with total strength
`total`: its lower edges are those of the cell; its upper edges are the lower edges of the next column, and of the
next cell in the column, or the upper edges of the cell where there is none; it is not empty; and it is sampled
with the share of the cell. -/
structure BinAccurate (s : Source ℝ) (total x z σ : ℝ) (b : SBin ℝ) : Prop where
  rLo : EdgeClose s.cellSideLength x b.rLo (x - s.cellSideLength / 2)
  zLo : EdgeClose s.cellSideLength z b.zLo (z - s.cellSideLength / 2)
  rHi : (∃ x' ∈ s.x, x < x' ∧ (∀ y ∈ s.x, y ≤ x ∨ x' ≤ y) ∧
      EdgeClose s.cellSideLength x' b.rHi (x' - s.cellSideLength / 2)) ∨
    ((∀ y ∈ s.x, y ≤ x) ∧ EdgeClose s.cellSideLength x b.rHi (x + s.cellSideLength / 2))
  zHi : (∃ z', (x, z') ∈ List.zip s.x s.z ∧ z < z' ∧ (∀ y, (x, y) ∈ List.zip s.x s.z → y ≤ z ∨ z' ≤ y) ∧
      EdgeClose s.cellSideLength z' b.zHi (z' - s.cellSideLength / 2)) ∨
    ((∀ y, (x, y) ∈ List.zip s.x s.z → y ≤ z) ∧
      EdgeClose s.cellSideLength z b.zHi (z + s.cellSideLength / 2))
  nonempty : b.rLo < b.rHi ∧ b.zLo < b.zHi
  prob : |b.prob - σ / total| ≤ 21 / 10 ^ 6 * (σ / total)

end TNS.Spec
