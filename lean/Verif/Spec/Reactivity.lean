import Verif.Model.Reactions
import Mathlib.Analysis.SpecialFunctions.Pow.Real
import Mathlib.Analysis.SpecialFunctions.Exp
import Mathlib.Analysis.SpecialFunctions.Trigonometric.Basic
import Mathlib.Algebra.BigOperators.Group.Finset.Basic
/-
Textbook formulas for thermal reactivities, independent of the model.
-/

set_option autoImplicit false

namespace TNS.Spec

noncomputable section

/-- Bosch & Hale 1992 (Nucl. Fusion 32 611) eqs. (12)-(14), with the coefficients named as in the
paper's Table VII, converted from cm³/s to m³/s. -/
def boschHale (BG mrc2 C1 C2 C3 C4 C5 C6 C7 T : ℝ) : ℝ :=
  let θ := T / (1 - (C2 * T + C4 * T ^ 2 + C6 * T ^ 3) / (1 + C3 * T + C5 * T ^ 2 + C7 * T ^ 3))
  let ξ := (BG ^ 2 / (4 * θ)) ^ ((1 : ℝ) / 3)
  C1 * θ * Real.sqrt (ξ / (mrc2 * T ^ 3)) * Real.exp (-3 * ξ) / 10 ^ 6

/-- Table VII, T(d,n)⁴He. -/
def boschHaleDT (T : ℝ) : ℝ :=
  boschHale 34.3827 1124656 1.17302e-9 1.51361e-2 7.51886e-2 4.60643e-3 1.35e-2 (-1.0675e-4)
    1.366e-5 T

/-- Table VII, D(d,n)³He. -/
def boschHaleDDn (T : ℝ) : ℝ :=
  boschHale 31.3970 937814 5.43360e-12 5.85778e-3 7.68222e-3 0 (-2.964e-6) 0 0 T

/-- Table VII, D(d,p)T. -/
def boschHaleDDp (T : ℝ) : ℝ :=
  boschHale 31.3970 937814 5.65718e-12 3.41267e-3 1.99167e-3 0 1.0506e-5 0 0 T

/-- The energies (keV) at which the Maxwell average is evaluated: 1000 points, logarithmically
spaced from 1 keV to 1 MeV. -/
def logEnergy (i : ℕ) : ℝ := (10 : ℝ) ^ (3 * (i : ℝ) / 999)

/-- The Maxwell average `sqrt(8/(π μ)) (kT)^(-3/2) ∫ σ(E) E exp(-E/kT) dE` of a cross section `σ`
(m², as a function of the centre-of-mass energy in keV), by the trapezoidal rule on the above
energies.  `kT` in J, `keV` in J, `μ` in kg. -/
def maxwellAverage (μ keV kT : ℝ) (σ : ℝ → ℝ) : ℝ :=
  let E := fun i => logEnergy i * keV
  let g := fun i => σ (logEnergy i) * E i * Real.exp (-E i / kT)
  Real.sqrt (8 / (Real.pi * μ)) * kT ^ (-(3 : ℝ) / 2) *
    ∑ i ∈ Finset.range 999, (E (i + 1) - E i) * ((g i + g (i + 1)) / 2)

/-- The reactions with a Bosch-Hale parameterisation. -/
def hasBoschHale : Reaction → Bool
  | .n .D_T | .n .D_D | .a .D_D => true
  | .n .T_T | .a .D_He3 => false

end
end TNS.Spec
