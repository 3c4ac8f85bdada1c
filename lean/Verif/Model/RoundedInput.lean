import Verif.Model.RoundedTT
import Verif.Model.RoundedOpenMC
/-
`to_openmc_source` with rounding, from the object to the energy distributions: the export of `Verif.Model.RoundedOpenMC`
with the spectra of `Verif.Model.RoundedEnergy` and `Verif.Model.RoundedTT`.
-/

set_option autoImplicit false

namespace TNS
noncomputable section

/-- `get_neutron_energy_spectrum` (`openmc_interface.py` 27-62) for every reaction, see `neutronEnergySpectrum`.  The
parameters are those of `ballabioDistR` and `ttDistR`.  `to_openmc_source` does not ask for aneutronic reactions: without a
fit they fail with `NotImplementedError` for want of data (`energy.py` 106-110), except that `AUTO` gives `None`, and
unpacking it is a `TypeError`, here `tnsError`. -/
def neutronDistR (A : Arith) (F : MathLib) (pi ke ks kv : ℝ) (method : SpectrumMethod) (r : Reaction) (t : ℝ) :
    Except Err NeutronDist :=
  match r with
  | .n .T_T => ttDistR A ke ks kv t method
  | r =>
    match r.ballabio with
    | some b => ballabioDistR A F pi (b.lit A) t method
    | none =>
      match method with
      | .AUTO => .error .tnsError
      | _ => .error .notImplementedError

/-- `to_openmc_source(energy_spectrum_method)` (`main.py` 213-242), see `Source.toOpenmcSource`. -/
def Source.toOpenmcSourceR (A : Arith) (F : MathLib) (pi ke ks kv : ℝ) (s : Source ℝ) (method : SpectrumMethod) :
    Except Err (List (Ring ℝ NeutronDist)) :=
  s.toOpenmcR A (neutronDistR A F pi ke ks kv method)

end
end TNS
