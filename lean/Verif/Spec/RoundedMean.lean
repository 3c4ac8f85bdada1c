import Verif.Spec.RoundedInput
import Verif.Spec.RoundedGridError
import Verif.Spec.SourceLimit
/-
Specification vocabulary for C114: the mean of a quantity over the neutrons of the plasma.
-/

set_option autoImplicit false

namespace TNS.Spec
noncomputable section
open MeasureTheory

/-- Neutrons per second and cubic metre at the point `p`, each counted with the value of `Φ` for its reaction at `p`. -/
def weightedNeutronsAt (sv : Reaction → ℝ → ℝ) (tr : TransportView ℝ) (psi : ℝ → ℝ → ℝ) (st : List Reaction)
    (Φ : Reaction → ℝ × ℝ → ℝ) (p : ℝ × ℝ) : ℝ :=
  (st.map fun r => (neutronYield r : ℝ) * rateAt sv tr psi r p * Φ r p).sum

/-- Neutrons per second and cubic metre at the point `p`. -/
def neutronsAt (sv : Reaction → ℝ → ℝ) (tr : TransportView ℝ) (psi : ℝ → ℝ → ℝ) (st : List Reaction) (p : ℝ × ℝ) : ℝ :=
  (st.map fun r => (neutronYield r : ℝ) * rateAt sv tr psi r p).sum

/-- Volume integral over the inside of the LCFS revolved about the axis. -/
def insideIntegral (pts : List (ℝ × ℝ)) (f : ℝ × ℝ → ℝ) : ℝ :=
  ∫ p in {p | containsPoint pts p = true}, f p * (2 * Real.pi * p.1)

/-- The quantity `phi`, for every distribution that may stand for reaction `r` at the point `p` (temperature of the plasma
there) and every starting point within 5/8 of a cell side of `p` along both axes, is `Φ r p` up to `η`. -/
def QuantityClose (spec : SpectrumMethod) (tr : TransportView ℝ) (psi : ℝ → ℝ → ℝ) (L : ℝ) (st : List Reaction)
    (cs : List (ℝ × ℝ)) (phi : NeutronDist → ℝ × ℝ → ℝ) (Φ : Reaction → ℝ × ℝ → ℝ) (η : ℝ) : Prop :=
  ∀ r ∈ st, 0 < neutronYield r → ∀ p ∈ cs, ∀ d : NeutronDist, LawOf spec r (temperatureAt tr psi p) d →
    ∀ q : ℝ × ℝ, |q.1 - p.1| ≤ 5 / 8 * L → |q.2 - p.2| ≤ 5 / 8 * L → |phi d q - Φ r p| ≤ η

end
end TNS.Spec
