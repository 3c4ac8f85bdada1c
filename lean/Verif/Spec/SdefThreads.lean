import Verif.Model.SdefThreads
import Verif.Spec.ExportThreads
/-
Specification vocabulary for SDEF files written during normalisations.
-/

set_option autoImplicit false

namespace TNS.Spec
noncomputable section

/-- Two SDEF files for the same reaction with the same name, sampling from the same bins.  The totals and the ion temperatures
differ by at most the factor `g` (both temperatures are `nan` if the channel is empty), the probabilities of the bins by at
most the factor `g ^ 2`. -/
structure SameSdef (g : ℝ) (a b : SdefFile ℝ) : Prop where
  name : b.name = a.name
  reaction : b.reaction = a.reaction
  total : WithinFactor g a.total b.total
  ionTemp : (a.total = 0 ∧ b.total = 0 ∧ a.ionTemp = .nan ∧ b.ionTemp = .nan) ∨
    ∃ u v : ℝ, a.ionTemp = .fin u ∧ b.ionTemp = .fin v ∧ WithinFactor g u v
  bins : List.Forall₂ (fun p q : SBin ℝ => q.rLo = p.rLo ∧ q.rHi = p.rHi ∧ q.zLo = p.zLo ∧ q.zHi = p.zHi ∧
    WithinFactor (g ^ 2) p.prob q.prob) (sdefBins a.cards) (sdefBins b.cards)

end
end TNS.Spec
