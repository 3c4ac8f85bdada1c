import Verif.Model.OpenMCSpectrum
import Verif.Props.Energy
/-
What the OpenMC energy distribution of a reaction should be.
-/

set_option autoImplicit false

namespace TNS.Spec
noncomputable section

/-- The distribution of the neutrons of reaction `r` in a plasma of ion temperature `t` (keV), in eV.
With the Gaussian method, D-T and D-D: the normal distribution with 1000 times the published mean and
standard deviation in keV.  Otherwise a table of 1000 times the energies of a normalised spectrum in keV
with its densities: of the modified Gaussian with the published moments for D-T and D-D, of the data
spectrum for T-T. -/
inductive IsNeutronDist (method : SpectrumMethod) (r : Neutronic) (t : ℝ) : NeutronDist → Prop
  | normal (hm : method = .BALLABIO_GAUSSIAN) (hr : r ≠ .T_T) (hs : 0 < specSigma r t) :
      IsNeutronDist method r t (.normal (1000 * specMean r t) (1000 * specSigma r t))
  | modified (c : ℝ) (keV : List (ℝ × ℝ)) (hm : method ≠ .BALLABIO_GAUSSIAN) (hr : r ≠ .T_T)
      (hc : 0 < c) (hk : keV = (linspace (specMean r t - 6 * specSigma r t)
        (specMean r t + 6 * specSigma r t) 1000).map
        (fun e => (e, c * modifiedGaussian (specMean r t) (specSigma r t) e)))
      (hpos : ∀ p ∈ keV, 0 < p.1) (hspec : IsSpectrum keV) :
      IsNeutronDist method r t (.tabular (keV.map (fun p => (1000 * p.1, p.2))))
  | data (keV : List (ℝ × ℝ)) (w : List LogMsg) (hr : r = .T_T)
      (hk : energySpectrum t (.n .T_T) .DATA = .ok (some keV, w))
      (hpos : ∀ p ∈ keV, 0 < p.1) (hspec : IsSpectrum keV) :
      IsNeutronDist method r t (.tabular (keV.map (fun p => (1000 * p.1, p.2))))

end
end TNS.Spec
