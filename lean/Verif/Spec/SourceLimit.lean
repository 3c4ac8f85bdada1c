import Verif.Spec.Refine
import Verif.Spec.Exports
import Verif.Spec.NeutronDist
import Mathlib.MeasureTheory.Integral.IntervalIntegral.Basic
/-
Specification vocabulary for the source that OpenMC samples, and for the neutrons of a plasma.
-/

set_option autoImplicit false

namespace TNS.Spec
open MeasureTheory
noncomputable section

/-- The density that OpenMC's `Tabular` distribution has at `x` (up to a factor): linear from `pLo` at `rLo` to `pHi` at
`rHi`. -/
def tabularDensity (rLo rHi pLo pHi x : ℝ) : ℝ := pLo + (pHi - pLo) * (x - rLo) / (rHi - rLo)

/-- The mean of `g` at points (m) whose radius (cm) has that density and whose height (cm) is uniform. -/
def boxMean (g : ℝ × ℝ → ℝ) (rLo rHi pLo pHi zLo zHi : ℝ) : ℝ :=
  (∫ x in rLo..rHi, ∫ z in zLo..zHi, tabularDensity rLo rHi pLo pHi x * g (x / 100, z / 100)) /
    ∫ x in rLo..rHi, ∫ _ in zLo..zHi, tabularDensity rLo rHi pLo pHi x

/-- The mean of `g` at the starting points of the neutrons that OpenMC samples from one exported source. -/
def ringMean {E : Type} (g : ℝ × ℝ → ℝ) (ring : Ring ℝ E) : ℝ :=
  boxMean g ring.rLo ring.rHi ring.pLo ring.pHi ring.zLo ring.zHi

/-- The mean of `phi`, a quantity that depends on the energy spectrum and the starting point (m), over the neutrons that
OpenMC samples from the exported sources: a source is chosen with its strength, a spectrum with its weight, a point as in
`ringMean`. -/
def openmcMean {E : Type} (phi : E → ℝ × ℝ → ℝ) (rings : List (Ring ℝ E)) : ℝ :=
  (rings.map fun ring => finValue ring.strength *
    (ring.energy.map fun q => q.1 * ringMean (phi q.2) ring).sum).sum

/-- Neutrons per second of the plasma with cross section `region`, each counted with the value of `phi` at the spectrum of its
reaction and its starting point. -/
def plasmaNeutrons (u : SI) (m : Masses ℝ) (method : ReactivityMethod) (T : ℝ → ℝ) (n : Species → ℝ → ℝ)
    (psi : ℝ → ℝ → ℝ) (region : Set (ℝ × ℝ)) (st : List Reaction) (phi : Reaction → ℝ → ℝ × ℝ → ℝ) : ℝ :=
  (st.map fun r => (neutronYield r : ℝ) * ∫ p in region, phi r (T (psi p.1 p.2)) p *
    (rateDensity (fun sp => n sp (psi p.1 p.2)) (thermalReactivity u m method r (T (psi p.1 p.2))) r *
      (2 * Real.pi * p.1))).sum

/-- A quantity `F` of a neutron that depends on the mean and the standard deviation (eV) of its spectrum and on its starting
point (m). -/
def ofNormal (F : ℝ → ℝ → ℝ × ℝ → ℝ) : NeutronDist → ℝ × ℝ → ℝ
  | .normal mean std, p => F mean std p
  | .tabular _, _ => 0

/-- The same quantity for a neutron of a reaction at an ion temperature (keV), with the published mean and standard
deviation. -/
def ofPublished (F : ℝ → ℝ → ℝ × ℝ → ℝ) : Reaction → ℝ → ℝ × ℝ → ℝ
  | .n r, t, p => F (1000 * specMean r t) (1000 * specSigma r t) p
  | .a _, _, _ => 0

end
end TNS.Spec
