import Verif.Spec.SourceLimit
import Verif.Spec.Moments
import Verif.Data.TTSpectra
/-
Specification vocabulary for C108: the energies of the neutrons that a transport code samples.
-/

set_option autoImplicit false

namespace TNS.Spec
open MeasureTheory
noncomputable section

/-- The mean of `f` at an energy (eV) sampled from a distribution: the normal density, or a density proportional to the
polygonal line through the points of a table (OpenMC's `Normal` and `Tabular`). -/
def energyMean (f : ℝ → ℝ) : NeutronDist → ℝ
  | .normal mean std =>
    ∫ E, f E * (1 / (std * Real.sqrt (2 * Real.pi)) * Real.exp (-((E - mean) ^ 2 / (2 * std ^ 2))))
  | .tabular l => moment f l / area l

/-- The T-T spectrum at an ion temperature (keV): at each tabulated energy (eV) the intensity is linear between the
tabulated temperatures `1 + 19 j / 39` keV, and constant outside 1 to 20 keV. -/
def publishedTT (t : ℝ) : List (ℝ × ℝ) :=
  let t' := max 1 (min t 20)
  let j := min 38 ⌊(t' - 1) * (39 / 19)⌋₊
  Data.ttSpectra.map fun row =>
    (1000 * ((row.1 : ℝ) / 10 ^ 14 * 1000),
      (row.2.getD j 0 : ℝ) + ((row.2.getD (j + 1) 0 : ℝ) - row.2.getD j 0) * ((t' - (1 + j * (19 / 39))) / (19 / 39)))

/-- The modified Gaussian (Ballabio et al. 1998, eq. 46) at 1000 energies (eV) that are evenly spaced over six standard
deviations on both sides of the mean (keV). -/
def publishedTable (mean sigma : ℝ) : List (ℝ × ℝ) :=
  (List.range 1000).map fun i : ℕ =>
    (1000 * (mean - 6 * sigma + i * (12 * sigma / 999)), modifiedGaussian mean sigma (mean - 6 * sigma + i * (12 * sigma / 999)))

/-- The energies of the neutrons of a reaction at an ion temperature (keV): the T-T data, and for D-T and D-D the normal
distribution or the table of the modified Gaussian, with the published mean and standard deviation. -/
def publishedLaw (method : SpectrumMethod) : Reaction → ℝ → NeutronDist
  | .n .T_T, t => .tabular (publishedTT t)
  | .n r, t =>
    if method = .BALLABIO_GAUSSIAN then .normal (1000 * specMean r t) (1000 * specSigma r t)
    else .tabular (publishedTable (specMean r t) (specSigma r t))
  | .a _, _ => .tabular []

end
end TNS.Spec
