import Verif.Spec.OpenMC
import Verif.Spec.Mcnp
/-
What the two exports say about where source neutrons are born, read off the exported objects alone.
-/

set_option autoImplicit false

namespace TNS.Spec
variable {K : Type} [Field K] [LinearOrder K]

/-- The value of a finite float. -/
def finValue : XF K → K
  | .fin a => a
  | _ => 0

/-- OpenMC: the fraction of all source neutrons that come from reaction `r` and start in the ring whose lower
inner corner is `(rLo, zLo)` (cm): sum, over the exported sources there, of the strength times the weight of
that reaction in the energy mixture.  (The mixtures carry the name of the reaction in place of its spectrum.) -/
def openmcFraction (rings : List (Ring K Reaction)) (r : Reaction) (rLo zLo : K) : K :=
  ((rings.filter (fun g => decide (g.rLo = rLo ∧ g.zLo = zLo))).map (fun g =>
    finValue g.strength * ((g.energy.filter (fun p => decide (p.2 = r))).map Prod.fst).sum)).sum

/-- MCNP: neutrons per second of one file, i.e. its header total (reactions per second) times the neutrons per
reaction. -/
def sdefNeutrons (f : SdefFile K) : K := (neutronYield f.reaction : K) * f.total

/-- MCNP: the weight with which a file has to be taken when the files of a source are combined. -/
def sdefWeight (files : List (SdefFile K)) (f : SdefFile K) : K :=
  sdefNeutrons f / (files.map sdefNeutrons).sum

end TNS.Spec
