import Mathlib.Analysis.SpecialFunctions.Exp
import Mathlib.Analysis.SpecialFunctions.Pow.Real
import Mathlib.Analysis.SpecialFunctions.Trigonometric.Basic
/-
What a neutron energy spectrum should be, independent of the model.
-/

set_option autoImplicit false

namespace TNS.Spec

/-- `r` is `l` without its leading and trailing entries of value 0: nothing else is removed, and `r`
starts and ends with a non-zero value. -/
structure IsTrimmed {K : Type} [Zero K] (l r : List (K × K)) : Prop where
  split : ∃ pre post, l = pre ++ r ++ post ∧ (∀ p ∈ pre, p.2 = 0) ∧ (∀ p ∈ post, p.2 = 0)
  first : ∃ p, r.head? = some p ∧ p.2 ≠ 0
  last : ∃ p, r.getLast? = some p ∧ p.2 ≠ 0

noncomputable section

/-- Area under the polygonal line through the points of a table. -/
def area {K : Type} [Field K] (l : List (K × K)) : K :=
  (List.zipWith (fun p q => (p.2 + q.2) / 2 * (q.1 - p.1)) l l.tail).sum

/-- A normalised tabulated density: increasing energies, no negative value, unit area. -/
structure IsSpectrum (l : List (ℝ × ℝ)) : Prop where
  sorted : l.Pairwise (fun p q => p.1 < q.1)
  nonneg : ∀ p ∈ l, 0 ≤ p.2
  unit : area l = 1

/-- Ballabio et al. 1998 eq. (46), up to normalisation: modified Gaussian of mean `μ` and standard
deviation `s`. -/
def modifiedGaussian (μ s e : ℝ) : ℝ :=
  let f := 1 - 3 / 2 * (s ^ 2 / μ ^ 2)
  let Ē := μ * Real.sqrt f
  let v := 4 / 3 * μ ^ 2 * (Real.sqrt f - f)
  Real.exp (-(2 * Ē) / v * (Real.sqrt e - Real.sqrt Ē) ^ 2)

/-- Ballabio's fit `α₁ T^(2/3) / (1 + α₂ T^α₃) + α₄ T`. -/
def ballabioFit (α₁ α₂ α₃ α₄ T : ℝ) : ℝ :=
  α₁ * T ^ ((2 : ℝ) / 3) / (1 + α₂ * T ^ α₃) + α₄ * T

/-- Table III of Ballabio et al.: mean neutron energies (keV). -/
def meanDT (T : ℝ) : ℝ := 14021 + ballabioFit 5.30509 2.4736e-3 1.84 1.3818 T
def meanDD (T : ℝ) : ℝ := 2449.5 + ballabioFit 4.69515 (-0.040729) 0.47 0.81844 T

/-- FWHM `ω₀ (1 + δ) √T` divided by `2 √(2 ln 2)` (to 17 digits). -/
def sigmaDT (T : ℝ) : ℝ :=
  177.259 * (1 + ballabioFit 5.1068e-4 7.6223e-3 1.78 8.7691e-5 T) * Real.sqrt T /
    2.3548200450309493
def sigmaDD (T : ℝ) : ℝ :=
  82.542 * (1 + ballabioFit 1.7013e-3 0.16888 0.49 7.946e-4 T) * Real.sqrt T / 2.3548200450309493

end
end TNS.Spec
