import Verif.Model.FluxMap
/-
Vocabulary for the flux map of an EQDSK file: what is required of the external interpolation, and what
it means for two files to hold the same equilibrium in different units or sign conventions.
-/

set_option autoImplicit false

namespace TNS.Spec
noncomputable section

/-- Interpolation on a grid of `N` values commutes with affine changes of the data (as every linear
interpolation scheme that reproduces constants does). -/
def AffineInterpolation (N : ℕ) (spline : List ℝ → ℝ × ℝ → ℝ) : Prop :=
  ∀ data : List ℝ, data.length = N → ∀ (c d : ℝ) (p : ℝ × ℝ),
    spline (data.map (fun v => c * v + d)) p = c * spline data p + d

/-- The same equilibrium with all fluxes multiplied by `c` and shifted by `d`: other units, per radian
or not, the opposite sign, another gauge. -/
def rescale (c d : ℝ) (f : EqdskFile) : EqdskFile :=
  { f with data := ⟨f.data.psi.map (fun v => c * v + d), c * f.data.psimag + d,
                    c * f.data.psibdry + d⟩ }

/-- `B` is the value, among those taken on the boundary points, that lies farthest from the axis value
in the direction in which the flux runs from axis to boundary. -/
def OutermostValue (psimag psibdry : ℝ) (values : List ℝ) (B : ℝ) : Prop :=
  B ∈ values ∧ ∀ v ∈ values, 0 ≤ (psibdry - psimag) * (B - v)

/-- The reported volume grows strictly with the normalised flux, from the axis to the LCFS. -/
def VolumeIncreases (i : FluxInterp) : Prop :=
  ∀ s t : ℝ, 0 ≤ s → s < t → t ≤ 1 → ∃ vs vt, i.volume (.one s) = .ok (.one vs) ∧
    i.volume (.one t) = .ok (.one vt) ∧ vs < vt

end
end TNS.Spec
