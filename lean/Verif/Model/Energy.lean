import Verif.Model.Reactions
import Verif.Model.Profile
import Verif.Model.Trapezoid
import Verif.Data.TTSpectra
import Mathlib.Analysis.SpecialFunctions.Pow.Real
import Mathlib.Analysis.SpecialFunctions.Exp
import Mathlib.Analysis.SpecialFunctions.Trigonometric.Basic
/-
Model of `tokamak_neutron_source/energy.py` and `tokamak_neutron_source/energy_data.py`.
A spectrum is the list of its (energy in keV, density) pairs.
-/

set_option autoImplicit false

namespace TNS

section trim
variable {K : Type} [Field K] [DecidableEq K]

/-- `np.nonzero(vec)[0]` (`energy.py` 260). -/
def nonzeroIdx (vec : List K) : List ℕ :=
  vec.zipIdx.filterMap (fun p => if p.1 ≠ 0 then some p.2 else none)

/-- `_trim_zero_mask` (`energy.py` 240-265). -/
def trimZeroMask (vec : List K) : Except Err (List Bool) :=
  match (nonzeroIdx vec).head?, (nonzeroIdx vec).getLast? with
  | some a, some b => .ok ((List.range vec.length).map (fun i : ℕ => decide (a ≤ i ∧ i < b + 1)))
  | _, _ => .error .energySpectrumError

/-- Boolean-mask indexing `a[mask]` (`energy.py` 234-235). -/
def applyMask {α : Type} (mask : List Bool) (l : List α) : List α :=
  (List.zip mask l).filterMap (fun p => if p.1 then some p.2 else none)

/-- `_prepare_energy_pdf` (`energy.py` 212-237).  `energy` and `pdf` are the two components of the
pairs.  Division by a zero integral (a single remaining point) gives `inf`: marked `nonFinite`. -/
def prepareEnergyPdf (l : List (K × K)) : Except Err (List (K × K)) := do
  let mask ← trimZeroMask (l.map Prod.snd)
  let pdf := applyMask mask (l.map Prod.snd)
  let energy := applyMask mask (l.map Prod.fst)
  let total := trapezoid (List.zip energy pdf)
  if total = 0 then .error .nonFinite
  else .ok (List.zip energy (pdf.map (· / total)))

end trim

/-- `EnergySpectrumMethod` (`energy.py` 23-29). -/
inductive SpectrumMethod
  | DATA | BALLABIO_GAUSSIAN | BALLABIO_M_GAUSSIAN | AUTO
  deriving DecidableEq, Repr

noncomputable section

/-- `BallabioCoefficients` (`energy_data.py` 82-91). -/
structure BallabioCoefficients where
  a1 : ℝ
  a2 : ℝ
  a3 : ℝ
  a4 : ℝ

/-- `BallabioCoefficients.fit` (`energy_data.py` 93-114), for positive temperatures with a non-zero
denominator. -/
def BallabioCoefficients.fit (c : BallabioCoefficients) (t : ℝ) : ℝ :=
  c.a1 / (1 + c.a2 * t ^ c.a3) * t ^ ((2 : ℝ) / 3) + c.a4 * t

/-- `BallabioEnergySpectrum` (`energy_data.py` 117-133). -/
structure Ballabio where
  energy0 : ℝ
  omega0 : ℝ
  shift : BallabioCoefficients
  width : BallabioCoefficients

/-- `TWO_SQRT_2LN2` (`energy_data.py` 24). -/
def twoSqrt2Ln2 : ℝ := 2.3548200450309493

/-- `mean_energy` with `energy_shift` (`energy_data.py` 135-139, 147-152). -/
def Ballabio.meanEnergy (b : Ballabio) (t : ℝ) : ℝ := b.energy0 + b.shift.fit t

/-- `std_deviation` with `width_correction` (`energy_data.py` 141-145, 154-161). -/
def Ballabio.stdDeviation (b : Ballabio) (t : ℝ) : ℝ :=
  b.omega0 * (1 + b.width.fit t) * Real.sqrt t / twoSqrt2Ln2

/-- `BALLABIO_DT_NEUTRON` (`energy_data.py` 164-179). -/
def ballabioDT : Ballabio :=
  { energy0 := 14021.0, omega0 := 177.259
    shift := { a1 := 5.30509, a2 := 2.4736e-3, a3 := 1.84, a4 := 1.3818 }
    width := { a1 := 5.1068e-4, a2 := 7.6223e-3, a3 := 1.78, a4 := 8.7691e-5 } }

/-- `BALLABIO_DD_NEUTRON` (`energy_data.py` 181-196). -/
def ballabioDD : Ballabio :=
  { energy0 := 2.4495e3, omega0 := 82.542
    shift := { a1 := 4.69515, a2 := -0.040729, a3 := 0.47, a4 := 0.81844 }
    width := { a1 := 1.7013e-3, a2 := 0.16888, a3 := 0.49, a4 := 7.9460e-4 } }

/-- The `ballabio_spectrum` column of the enum tables (`reactions.py` 93, 101, 109, 122, 130). -/
def Reaction.ballabio : Reaction → Option Ballabio
  | .n .D_T => some ballabioDT
  | .n .D_D => some ballabioDD
  | .n .T_T => none
  | .a .D_D => none
  | .a .D_He3 => none

/-- `_gaussian_energy_spectrum` (`energy.py` 150-174).  `sigma = 0` divides by zero. -/
def gaussianEnergySpectrum (mu sigma : ℝ) : Except Err (List (ℝ × ℝ)) :=
  if sigma = 0 then .error .nonFinite
  else prepareEnergyPdf ((linspace (mu - 6 * sigma) (mu + 6 * sigma) 1000).map
    (fun e => (e, 1 / (sigma * Real.sqrt (2 * Real.pi)) *
      Real.exp (-((e - mu) ^ 2) / (2 * sigma ^ 2)))))

/-- `_modified_gaussian_energy_spectrum` (`energy.py` 177-209).  Marked `nonFinite` where numpy
takes the square root of a negative number or divides by zero. -/
def modifiedGaussianEnergySpectrum (mu sigma : ℝ) : Except Err (List (ℝ × ℝ)) :=
  let energy := linspace (mu - 6 * sigma) (mu + 6 * sigma) 1000
  if mu = 0 then .error .nonFinite
  else
    let factor := 1.0 - 1.5 * (sigma / mu) ^ 2
    let sqrtFactor := Real.sqrt factor
    let eBar := mu * sqrtFactor
    let sigmaSq := 4.0 / 3.0 * mu ^ 2 * (sqrtFactor - factor)
    if factor < 0 ∨ eBar < 0 ∨ (∃ e ∈ energy, e < 0) ∨ sigmaSq = 0 then .error .nonFinite
    else prepareEnergyPdf (energy.map
      (fun e => (e, Real.exp (-2.0 * eBar * (Real.sqrt e - Real.sqrt eBar) ^ 2 / sigmaSq))))

/-- `_ballabio_spectrum` (`energy.py` 113-147).  At `T < 0` powers and square root give `nan`; at
`T = 0` the width is 0. -/
def ballabioSpectrum (b : Ballabio) (t : ℝ) (method : SpectrumMethod) :
    Except Err (List (ℝ × ℝ)) :=
  if t < 0 ∨ 1 + b.shift.a2 * t ^ b.shift.a3 = 0 ∨ 1 + b.width.a2 * t ^ b.width.a3 = 0 then
    .error .nonFinite
  else match method with
    | .BALLABIO_GAUSSIAN => gaussianEnergySpectrum (b.meanEnergy t) (b.stdDeviation t)
    | .BALLABIO_M_GAUSSIAN => modifiedGaussianEnergySpectrum (b.meanEnergy t) (b.stdDeviation t)
    | _ => .error .notImplementedError

/-- The energy column of the T-T data, in keV (`energy_data.py` 52). -/
def ttEnergy : List ℝ := Data.ttSpectra.map (fun r => (r.1 : ℝ) / 10 ^ 14 * 1000)

/-- The tabulated temperatures (`energy_data.py` 54-56). -/
def ttTemperatures : List ℝ := linspace 1 20 40

/-- The rows of intensities of the T-T data, in 1/keV (`energy_data.py` 57). -/
def ttIntensities : List (List ℝ) :=
  Data.ttSpectra.map (fun r => r.2.map (fun n : ℕ => (n : ℝ) / 10 ^ 92 / 1000))

/-- `self._interpolator((self._energy, temp_kev))` (`energy_data.py` 58-64, 76): scipy's
`RegularGridInterpolator`, linear.  Every requested energy is a grid point, so the bilinear formula
is the linear interpolation in temperature of the row of that energy. -/
def ttInterpolate (t : ℝ) : List ℝ :=
  ttIntensities.map (fun row => npInterp (List.zip ttTemperatures row) t)

/-- Warnings that the spectrum modules can log (`energy.py` 64-68, `energy_data.py` 69-73). -/
inductive LogMsg
  | noBallabio (r : Reaction)
  | ttClipped (t : ℝ)

/-- `TTNeutronEnergyDataSpectrum.__call__` (`energy_data.py` 66-76): the pairs (energy, intensity)
and the warnings logged. -/
def ttCall (t : ℝ) : List (ℝ × ℝ) × List LogMsg :=
  if 1 < t ∧ t < 20 then (List.zip ttEnergy (ttInterpolate t), [])
  else (List.zip ttEnergy (ttInterpolate (clip 1 20 t)), [.ttClipped t])

/-- `_data_spectrum` (`energy.py` 83-110). -/
def dataSpectrum (r : Reaction) (t : ℝ) : Except Err (List (ℝ × ℝ) × List LogMsg) :=
  match r with
  | .n .T_T => do
    let s ← prepareEnergyPdf (ttCall t).1
    .ok (s, (ttCall t).2)
  | _ => .error .notImplementedError

/-- `energy_spectrum` (`energy.py` 32-80): the spectrum (`none` for Python's `None`, which the
`AUTO` branch returns for an aneutronic reaction) and the warnings logged.  The two recursive calls
of the `AUTO` branch are unfolded. -/
def energySpectrum (t : ℝ) (r : Reaction) (method : SpectrumMethod) :
    Except Err (Option (List (ℝ × ℝ)) × List LogMsg) :=
  match method with
  | .BALLABIO_GAUSSIAN | .BALLABIO_M_GAUSSIAN =>
    match r.ballabio with
    | some b => do
      let s ← ballabioSpectrum b t method
      .ok (some s, [])
    | none => do
      let s ← dataSpectrum r t
      .ok (some s.1, .noBallabio r :: s.2)
  | .DATA => do
    let s ← dataSpectrum r t
    .ok (some s.1, s.2)
  | .AUTO =>
    match r with
    | .n .D_D | .n .D_T =>
      match r.ballabio with
      | some b => do
        let s ← ballabioSpectrum b t .BALLABIO_M_GAUSSIAN
        .ok (some s, [])
      | none => do
        let s ← dataSpectrum r t
        .ok (some s.1, .noBallabio r :: s.2)
    | .n .T_T => do
      let s ← dataSpectrum r t
      .ok (some s.1, s.2)
    | _ => .ok (none, [])

end
end TNS
