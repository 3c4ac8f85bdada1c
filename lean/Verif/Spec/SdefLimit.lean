import Verif.Spec.SourceLimit
/-
Specification vocabulary for the source that MCNP samples from the SDEF files.
-/

set_option autoImplicit false

namespace TNS.Spec
open MeasureTheory
noncomputable section

/-- The mean of `g` at points (m) whose radius and height (cm) are uniform in a box: how MCNP samples within one bin of
histograms for `RAD` and `EXT`. -/
def uniformMean (g : ℝ × ℝ → ℝ) (rLo rHi zLo zHi : ℝ) : ℝ :=
  (∫ x in rLo..rHi, ∫ z in zLo..zHi, g (x / 100, z / 100)) / ((rHi - rLo) * (zHi - zLo))

/-- The mean of `g` at the starting points (m) of the neutrons that MCNP samples from the cards of one file: a bin is chosen
with its probability, a point uniformly in the bin. -/
def mcnpMean (g : ℝ × ℝ → ℝ) (cards : SdefCards ℝ) : ℝ :=
  ((sdefBins cards).map fun b => b.prob * uniformMean g b.rLo b.rHi b.zLo b.zHi).sum

/-- The mean of `g` over a run with all files, each taken with the share of the neutrons that its header gives. -/
def mcnpRunMean (g : ℝ × ℝ → ℝ) (files : List (SdefFile ℝ)) : ℝ :=
  (files.map fun f => sdefWeight files f * mcnpMean g f.cards).sum

/-- The mean of `f` over the reactions of channel `r` in the plasma with cross section `region`. -/
def reactionMean (u : SI) (m : Masses ℝ) (method : ReactivityMethod) (T : ℝ → ℝ) (n : Species → ℝ → ℝ)
    (psi : ℝ → ℝ → ℝ) (region : Set (ℝ × ℝ)) (r : Reaction) (f : ℝ × ℝ → ℝ) : ℝ :=
  (∫ p in region, f p * (rateDensity (fun sp => n sp (psi p.1 p.2))
      (thermalReactivity u m method r (T (psi p.1 p.2))) r * (2 * Real.pi * p.1))) /
    ∫ p in region, rateDensity (fun sp => n sp (psi p.1 p.2))
      (thermalReactivity u m method r (T (psi p.1 p.2))) r * (2 * Real.pi * p.1)

end
end TNS.Spec
