import Verif.Model.ExportThreads
import Verif.Spec.NormThreads
import Verif.Spec.Exports
/-
Specification vocabulary for exports during normalisations.
-/

set_option autoImplicit false

namespace TNS.Spec
noncomputable section

/-- Two non-negative numbers differ by at most the factor `g`. -/
def WithinFactor (g a b : ℝ) : Prop := a ≤ g * b ∧ b ≤ g * a

/-- Two OpenMC sources for the same cell, with the same spectra; their strengths and the shares of the spectra differ by at
most the factor `g`, and the shares add up to 1. -/
structure SameCell {E : Type} (g : ℝ) (a b : Ring ℝ E) : Prop where
  rLo : b.rLo = a.rLo
  rHi : b.rHi = a.rHi
  pLo : b.pLo = a.pLo
  pHi : b.pHi = a.pHi
  zLo : b.zLo = a.zLo
  zHi : b.zHi = a.zHi
  strength : ∃ u v : ℝ, a.strength = .fin u ∧ b.strength = .fin v ∧ WithinFactor g u v
  energy : List.Forall₂ (fun p q => q.2 = p.2 ∧ WithinFactor g p.1 q.1) a.energy b.energy
  shares : (b.energy.map Prod.fst).sum = 1

end
end TNS.Spec
