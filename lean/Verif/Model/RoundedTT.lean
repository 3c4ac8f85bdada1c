import Verif.Model.RoundedEnergy
/-
The T-T neutron spectrum with rounding: loading the table, scipy's `RegularGridInterpolator` in two dimensions,
normalisation and conversion to eV, operation by operation.  The scale factors that `raw_uc` multiplies by are computed by
pint from the definitions of the units, in floating point: they are parameters (`ke` for MeV to keV, `ks` for 1/MeV to
1/keV, `kv` for keV to eV).  See `Verif.Model.Rounded` and `Verif.Model.RoundedEnergy`.
-/

set_option autoImplicit false

namespace TNS
noncomputable section

/-- `self._energy` (`energy_data.py` 48, 52): the decimal number of the file as a float, times the scale factor. -/
def ttEnergyR (A : Arith) (ke : ℝ) : List ℝ := Data.ttSpectra.map fun r => A.rd (A.rd ((r.1 : ℝ) / 10 ^ 14) * ke)

/-- `np.linspace(1.0, 20.0, 40)` (`energy_data.py` 54-56), see `linspaceR`. -/
def ttTemperaturesR (A : Arith) : List ℝ :=
  (List.range 40).map fun i : ℕ =>
    if i = 39 then 20 else A.rd (A.rd ((i : ℝ) * A.rd (A.rd (20 - 1) / 39)) + 1)

/-- `spectra` (`energy_data.py` 48, 57). -/
def ttIntensitiesR (A : Arith) (ks : ℝ) : List (List ℝ) :=
  Data.ttSpectra.map fun r => r.2.map fun n : ℕ => A.rd (A.rd ((n : ℝ) / 10 ^ 92) * ks)

open Classical in
/-- `find_interval_ascending` of scipy's `_find_indices` on an ascending grid (called from `energy_data.py` 76): the last
grid point not above `x`, but not the last of all. -/
def findInterval (g : List ℝ) (x : ℝ) : ℕ :=
  min (g.length - 2) ((g.filter fun y => decide (y ≤ x)).length - 1)

/-- The normalised distance of scipy's `_find_indices` (called from `energy_data.py` 76). -/
def normDistR (A : Arith) (g : List ℝ) (i : ℕ) (x : ℝ) : ℝ :=
  A.rd (A.rd (x - g.getD i 0) / A.rd (g.getD (i + 1) 0 - g.getD i 0))

/-- One value times its two weights, from left to right (scipy's `evaluate_linear_2d`, called from `energy_data.py` 76). -/
def cornerR (A : Arith) (v a b : ℝ) : ℝ := A.rd (A.rd (v * a) * b)

/-- scipy's `evaluate_linear_2d` (called from `energy_data.py` 76): the four corners are added in this order. -/
def bilinearR (A : Arith) (v00 v01 v10 v11 y0 y1 : ℝ) : ℝ :=
  A.rd (A.rd (A.rd (cornerR A v00 (A.rd (1 - y0)) (A.rd (1 - y1)) + cornerR A v01 (A.rd (1 - y0)) y1) +
    cornerR A v10 y0 (A.rd (1 - y1))) + cornerR A v11 y0 y1)

open Classical in
/-- `self._interpolator((self._energy, temp_kev))` (`energy_data.py` 58-64, 76).  The constructor rejects grids that do not
ascend, the call rejects a temperature outside the grid (`bounds_error=True`); the energies are those of the grid. -/
def ttInterpolateR (A : Arith) (ke ks t : ℝ) : Except Err (List ℝ) :=
  if ¬ (ttEnergyR A ke).Pairwise (· < ·) ∨ ¬ (ttTemperaturesR A).Pairwise (· < ·) then .error .valueError
  else if t < (ttTemperaturesR A).headD 0 ∨ (ttTemperaturesR A).getLastD 0 < t then .error .valueError
  else .ok ((ttEnergyR A ke).map fun e =>
    let i := findInterval (ttEnergyR A ke) e
    let j := findInterval (ttTemperaturesR A) t
    let v : ℕ → ℕ → ℝ := fun a b => ((ttIntensitiesR A ks).getD a []).getD b 0
    bilinearR A (v i j) (v i (j + 1)) (v (i + 1) j) (v (i + 1) (j + 1))
      (normDistR A (ttEnergyR A ke) i e) (normDistR A (ttTemperaturesR A) j t))

open Classical in
/-- `TTNeutronEnergyDataSpectrum.__call__` (`energy_data.py` 66-76), see `ttCall`. -/
def ttCallR (A : Arith) (ke ks t : ℝ) : Except Err (List (ℝ × ℝ) × List LogMsg) := do
  let l ← ttInterpolateR A ke ks (if 1 < t ∧ t < 20 then t else clip 1 20 t)
  .ok (List.zip (ttEnergyR A ke) l, if 1 < t ∧ t < 20 then [] else [.ttClipped t])

open Classical in
/-- `energy_spectrum` for T-T (`energy.py` 32-80, 104-106), see `energySpectrum` and `dataSpectrum`: all methods take the
data, those of Ballabio with a warning. -/
def ttSpectrumR (A : Arith) (ke ks t : ℝ) (method : SpectrumMethod) :
    Except Err (List (ℝ × ℝ) × List LogMsg) := do
  let c ← ttCallR A ke ks t
  let s ← prepareEnergyPdfR A c.1
  .ok (s, if method = .BALLABIO_GAUSSIAN ∨ method = .BALLABIO_M_GAUSSIAN then .noBallabio .TT :: c.2 else c.2)

/-- `get_neutron_energy_spectrum` (`openmc_interface.py` 27-62) for T-T, see `neutronEnergySpectrum`. -/
def ttDistR (A : Arith) (ke ks kv t : ℝ) (method : SpectrumMethod) : Except Err NeutronDist := do
  let c ← ttSpectrumR A ke ks t method
  .ok (.tabular (c.1.map fun p => (A.rd (p.1 * kv), p.2)))

end
end TNS
