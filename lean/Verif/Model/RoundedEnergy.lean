import Verif.Model.RoundedXs
import Verif.Model.Energy
import Verif.Model.OpenMCSpectrum
/-
The D-T and D-D neutron spectra with rounding: fits, energy grid, Gaussian and modified Gaussian, normalisation and
conversion to eV, operation by operation.  See `Verif.Model.Rounded`, `Verif.Model.RoundedReactivity` and
`Verif.Model.RoundedXs`.  Squares of arrays (`energy.py` 172, 208) are one rounded multiplication, powers of scalars come
from the library.
-/

set_option autoImplicit false

namespace TNS
noncomputable section

/-- The decimal literals of the coefficients (`energy_data.py` 164-196) as floats. -/
def BallabioCoefficients.lit (A : Arith) (c : BallabioCoefficients) : BallabioCoefficients :=
  { a1 := A.rd c.a1, a2 := A.rd c.a2, a3 := A.rd c.a3, a4 := A.rd c.a4 }

/-- The decimal literals of a fit (`energy_data.py` 164-196) as floats. -/
def Ballabio.lit (A : Arith) (b : Ballabio) : Ballabio :=
  { energy0 := A.rd b.energy0, omega0 := A.rd b.omega0, shift := b.shift.lit A, width := b.width.lit A }

/-- The denominator in `fit` (`energy_data.py` 112), `c` the floats. -/
def BallabioCoefficients.denR (A : Arith) (F : MathLib) (c : BallabioCoefficients) (t : ℝ) : ℝ :=
  A.rd (1 + A.rd (c.a2 * F.pow t c.a3))

/-- `BallabioCoefficients.fit` (`energy_data.py` 93-114), `c` the floats. -/
def BallabioCoefficients.fitR (A : Arith) (F : MathLib) (c : BallabioCoefficients) (t : ℝ) : ℝ :=
  A.rd (A.rd (A.rd (c.a1 / c.denR A F t) * F.pow t (A.rd (2 / 3))) + A.rd (c.a4 * t))

/-- `mean_energy` (`energy_data.py` 135-139, 147-152), `b` the floats. -/
def Ballabio.meanEnergyR (A : Arith) (F : MathLib) (b : Ballabio) (t : ℝ) : ℝ := A.rd (b.energy0 + b.shift.fitR A F t)

/-- `std_deviation` (`energy_data.py` 24, 141-145, 154-161), `b` the floats. -/
def Ballabio.stdDeviationR (A : Arith) (F : MathLib) (b : Ballabio) (t : ℝ) : ℝ :=
  A.rd (A.rd (A.rd (b.omega0 * A.rd (1 + b.width.fitR A F t)) * F.sqrt t) / A.rd twoSqrt2Ln2)

/-- `np.linspace(a, b, 1000)` (`energy.py` 170, 201): numpy multiplies `arange` by the rounded step, adds the start and
overwrites the last entry with the stop. -/
def linspaceR (A : Arith) (a b : ℝ) : List ℝ :=
  (List.range 1000).map fun i : ℕ =>
    if i = 999 then b else A.rd (A.rd ((i : ℝ) * A.rd (A.rd (b - a) / 999)) + a)

/-- The energies of both Gaussian spectra (`energy.py` 170, 201). -/
def energyGridR (A : Arith) (mu sigma : ℝ) : List ℝ :=
  linspaceR A (A.rd (mu - A.rd (6 * sigma))) (A.rd (mu + A.rd (6 * sigma)))

open Classical in
/-- `_prepare_energy_pdf` (`energy.py` 212-237), see `prepareEnergyPdf`. -/
def prepareEnergyPdfR (A : Arith) (l : List (ℝ × ℝ)) : Except Err (List (ℝ × ℝ)) := do
  let mask ← trimZeroMask (l.map Prod.snd)
  let pdf := applyMask mask (l.map Prod.snd)
  let energy := applyMask mask (l.map Prod.fst)
  let total := A.npSum (trapezoidTermsR A (List.zip energy pdf))
  if total = 0 then .error .nonFinite
  else .ok (List.zip energy (pdf.map fun p => A.rd (p / total)))

/-- One density of `_gaussian_energy_spectrum` (`energy.py` 171-173); `pi` stands for `np.pi`. -/
def gaussianPdfR (A : Arith) (F : MathLib) (pi mu sigma e : ℝ) : ℝ :=
  A.rd (A.rd (1 / A.rd (sigma * F.sqrt (A.rd (2 * pi)))) *
    F.exp (A.rd (-(A.rd (A.rd (e - mu) * A.rd (e - mu))) / A.rd (2 * F.pow sigma 2))))

open Classical in
/-- `_gaussian_energy_spectrum` (`energy.py` 150-174), see `gaussianEnergySpectrum`. -/
def gaussianEnergySpectrumR (A : Arith) (F : MathLib) (pi mu sigma : ℝ) : Except Err (List (ℝ × ℝ)) :=
  if sigma = 0 then .error .nonFinite
  else prepareEnergyPdfR A ((energyGridR A mu sigma).map fun e => (e, gaussianPdfR A F pi mu sigma e))

/-- `factor` (`energy.py` 203). -/
def mgFactorR (A : Arith) (F : MathLib) (mu sigma : ℝ) : ℝ :=
  A.rd (1 - A.rd (1.5 * F.pow (A.rd (sigma / mu)) 2))

/-- `e_bar` (`energy.py` 204-205). -/
def mgEBarR (A : Arith) (F : MathLib) (mu sigma : ℝ) : ℝ := A.rd (mu * F.sqrt (mgFactorR A F mu sigma))

/-- `sigma_sq` (`energy.py` 204, 206). -/
def mgSigmaSqR (A : Arith) (F : MathLib) (mu sigma : ℝ) : ℝ :=
  A.rd (A.rd (A.rd (4 / 3) * F.pow mu 2) * A.rd (F.sqrt (mgFactorR A F mu sigma) - mgFactorR A F mu sigma))

/-- The difference of roots in `_modified_gaussian_energy_spectrum` (`energy.py` 208). -/
def mgRootR (A : Arith) (F : MathLib) (eBar e : ℝ) : ℝ := A.rd (F.sqrt e - F.sqrt eBar)

/-- One density of `_modified_gaussian_energy_spectrum` (`energy.py` 208). -/
def mgPdfR (A : Arith) (F : MathLib) (eBar sigmaSq e : ℝ) : ℝ :=
  F.exp (A.rd (A.rd (A.rd (-2 * eBar) * A.rd (mgRootR A F eBar e * mgRootR A F eBar e)) / sigmaSq))

open Classical in
/-- `_modified_gaussian_energy_spectrum` (`energy.py` 177-209), see `modifiedGaussianEnergySpectrum`. -/
def modifiedGaussianEnergySpectrumR (A : Arith) (F : MathLib) (mu sigma : ℝ) : Except Err (List (ℝ × ℝ)) :=
  if mu = 0 then .error .nonFinite
  else
    if mgFactorR A F mu sigma < 0 ∨ mgEBarR A F mu sigma < 0 ∨ (∃ e ∈ energyGridR A mu sigma, e < 0) ∨
        mgSigmaSqR A F mu sigma = 0 then .error .nonFinite
    else prepareEnergyPdfR A ((energyGridR A mu sigma).map fun e =>
      (e, mgPdfR A F (mgEBarR A F mu sigma) (mgSigmaSqR A F mu sigma) e))

open Classical in
/-- `_ballabio_spectrum` (`energy.py` 113-147), `b` the floats, see `ballabioSpectrum`. -/
def ballabioSpectrumR (A : Arith) (F : MathLib) (pi : ℝ) (b : Ballabio) (t : ℝ) (method : SpectrumMethod) :
    Except Err (List (ℝ × ℝ)) :=
  if t < 0 ∨ b.shift.denR A F t = 0 ∨ b.width.denR A F t = 0 then .error .nonFinite
  else match method with
    | .BALLABIO_GAUSSIAN => gaussianEnergySpectrumR A F pi (b.meanEnergyR A F t) (b.stdDeviationR A F t)
    | .BALLABIO_M_GAUSSIAN => modifiedGaussianEnergySpectrumR A F (b.meanEnergyR A F t) (b.stdDeviationR A F t)
    | _ => .error .notImplementedError

open Classical in
/-- `get_neutron_energy_spectrum` (`openmc_interface.py` 27-62) for the reactions with a Ballabio fit, see
`neutronEnergySpectrum`; `AUTO` is the modified Gaussian (`energy.py` 73-78), and for these reactions there are no data
(`energy.py` 106-110). -/
def ballabioDistR (A : Arith) (F : MathLib) (pi : ℝ) (b : Ballabio) (t : ℝ) :
    SpectrumMethod → Except Err NeutronDist
  | .BALLABIO_GAUSSIAN =>
    if t < 0 ∨ b.shift.denR A F t = 0 ∨ b.width.denR A F t = 0 then .error .nonFinite
    else if A.rd (b.stdDeviationR A F t * 1000) ≤ 0 then .error .valueError
    else .ok (.normal (A.rd (b.meanEnergyR A F t * 1000)) (A.rd (b.stdDeviationR A F t * 1000)))
  | .DATA => .error .notImplementedError
  | _ => do
    let l ← ballabioSpectrumR A F pi b t .BALLABIO_M_GAUSSIAN
    .ok (.tabular (l.map fun p => (A.rd (p.1 * 1000), p.2)))

end
end TNS
