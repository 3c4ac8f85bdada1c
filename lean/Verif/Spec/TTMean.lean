import Mathlib.Analysis.SpecialFunctions.Integrals.Basic
import Verif.Spec.Energy
/-
Mean energies of the two forms in which a neutron spectrum is exported.
-/

set_option autoImplicit false

namespace TNS.Spec
noncomputable section

/-- First moment of the polygonal line through the points of a table: the integral of `x f(x)`, segment by
segment. -/
def firstMoment (l : List (ℝ × ℝ)) : ℝ :=
  (List.zipWith (fun p q => ∫ x in p.1..q.1, x * (p.2 + (q.2 - p.2) * ((x - p.1) / (q.1 - p.1))))
    l l.tail).sum

/-- Mean of the distribution whose density is proportional to the polygonal line (OpenMC's `Tabular`). -/
def tableMean (l : List (ℝ × ℝ)) : ℝ := firstMoment l / area l

/-- Mean of a histogram given by MCNP cards `SIn H b₀ b₁ …`, `SPn D p₀ p₁ …`: bin `i` extends from
`bᵢ₋₁` to `bᵢ`, is uniform, and has probability proportional to `pᵢ` (`p₀` has no bin). -/
def histMean (bounds probs : List ℝ) : ℝ :=
  (List.zipWith (fun (b : ℝ × ℝ) p => p * ((b.1 + b.2) / 2)) (List.zip bounds bounds.tail)
    probs.tail).sum / probs.tail.sum

end
end TNS.Spec
