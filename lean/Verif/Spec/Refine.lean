import Verif.Spec.Workflow
import Verif.Spec.Source
import Mathlib.MeasureTheory.Integral.Bochner.Set
import Mathlib.MeasureTheory.Measure.Lebesgue.Basic
/-
Specification vocabulary for the limit of fine grids.
-/

set_option autoImplicit false

namespace TNS.Spec
open MeasureTheory
noncomputable section

/-- The profiles of a transport object are the functions `T` (keV) and `n` (per species, 1/m³) of the
normalised radius. -/
structure ProfilesAre (tr : Transport) (T : ℝ → ℝ) (n : Species → ℝ → ℝ) : Prop where
  temperature : ∀ rho, tr.temperature.value rho = .ok (T rho)
  deuterium : ∀ rho, tr.deuterium.value rho = .ok (n .deuterium rho)
  tritium : ∀ rho, tr.tritium.value rho = .ok (n .tritium rho)
  helium3 : ∀ rho, tr.helium3.value rho = .ok (n .helium3 rho)

/-- Continuous profiles with non-negative densities, at temperatures for which all channels in `st` have a
reactivity. -/
structure ContinuousPlasma (method : ReactivityMethod) (st : List Reaction) (T : ℝ → ℝ)
    (n : Species → ℝ → ℝ) : Prop where
  T_cont : Continuous T
  n_cont : ∀ sp, Continuous (n sp)
  n_nonneg : ∀ sp rho, 0 ≤ n sp rho
  T_good : ∀ rho, ∀ r ∈ st, goodTemperature method r (T rho)

/-- Reactions per second of channel `r` in the toroidal plasma with poloidal cross section `region`: the
integral of `n₁ n₂ <σv> / (1 + δ₁₂)` over the volume, `dV = 2π x dx dz`. -/
def plasmaRate (u : SI) (m : Masses ℝ) (method : ReactivityMethod) (T : ℝ → ℝ)
    (n : Species → ℝ → ℝ) (psi : ℝ → ℝ → ℝ) (region : Set (ℝ × ℝ)) (r : Reaction) : ℝ :=
  ∫ p in region, rateDensity (fun sp => n sp (psi p.1 p.2))
    (thermalReactivity u m method r (T (psi p.1 p.2))) r * (2 * Real.pi * p.1)

end
end TNS.Spec
