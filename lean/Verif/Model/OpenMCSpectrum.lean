import Verif.Model.OpenMC
import Verif.Model.Energy
/-
Model of `get_neutron_energy_spectrum` (`openmc_interface.py` 27-62) and of `to_openmc_source` with it.
-/

set_option autoImplicit false

namespace TNS
noncomputable section

/-- The OpenMC energy distributions built by the package, as records of their constructor arguments:
`Normal(mean_value, std_dev)` and `Tabular(x, p, interpolation="linear-linear")`.  Energies in eV.
`openmc_interface.py` 57, 62. -/
inductive NeutronDist
  | normal (mean std : ℝ)
  | tabular (l : List (ℝ × ℝ))

/-- `get_neutron_energy_spectrum` (`openmc_interface.py` 27-62).  `raw_uc(.., "keV", "eV")` is
multiplication by 1000.  At `T < 0` the powers are `nan` (marked `nonFinite`, as where a denominator of a
fit vanishes); OpenMC's `Normal` rejects a standard deviation that is not positive with `ValueError`;
unpacking `None` (aneutronic reaction with `AUTO`, not reachable from `to_openmc_source`) is a `TypeError`,
here `tnsError`.  Warnings are left out. -/
def neutronEnergySpectrum (method : SpectrumMethod) (r : Reaction) (t : ℝ) :
    Except Err NeutronDist :=
  match method, r.ballabio with
  | .BALLABIO_GAUSSIAN, some b =>
    if t < 0 ∨ 1 + b.shift.a2 * t ^ b.shift.a3 = 0 ∨ 1 + b.width.a2 * t ^ b.width.a3 = 0 then
      .error .nonFinite
    else
      let mean := b.meanEnergy t
      let std := b.stdDeviation t
      if std * 1000 ≤ 0 then .error .valueError
      else .ok (.normal (mean * 1000) (std * 1000))
  | _, _ => do
    let s ← energySpectrum t r method
    match s.1 with
    | none => .error .tnsError
    | some l => .ok (.tabular (l.map (fun p => (p.1 * 1000, p.2))))

/-- `to_openmc_source(energy_spectrum_method)` (`main.py` 213-242). -/
def Source.toOpenmcSource (s : Source ℝ) (method : SpectrumMethod) :
    Except Err (List (Ring ℝ NeutronDist)) :=
  s.toOpenmc (neutronEnergySpectrum method)

end
end TNS
