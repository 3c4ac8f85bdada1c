import Verif.Spec.Exports
import Verif.Spec.RoundedMake
/-
Specification vocabulary for C112: where the OpenMC input says that neutrons start, when edges are rounded.
-/

set_option autoImplicit false

namespace TNS.Spec
noncomputable section

open Classical in
/-- OpenMC: the fraction of all source neutrons that come from reaction `r` and start in the ring around the point `p` (m):
sum, over the exported sources whose cross-section (cm) has `p` inside, of the strength times the weight of that reaction in
the energy mixture.  (The mixtures carry the name of the reaction in place of its spectrum.) -/
def openmcFractionAt (rings : List (Ring ℝ Reaction)) (r : Reaction) (p : ℝ × ℝ) : ℝ :=
  ((rings.filter fun g => decide (g.rLo < 100 * p.1 ∧ 100 * p.1 < g.rHi ∧ g.zLo < 100 * p.2 ∧ 100 * p.2 < g.zHi)).map
    fun g => finValue g.strength * ((g.energy.filter fun q => decide (q.2 = r)).map Prod.fst).sum).sum

end
end TNS.Spec
