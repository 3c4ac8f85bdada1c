import Verif.Model.Workflow
import Verif.Props.Reactivity
import Verif.Props.Constants
import Verif.Spec.Physical
/-
Specification vocabulary for a source built from the package's own physics.
-/

set_option autoImplicit false

namespace TNS.Spec
noncomputable section

/-- The thermal reactivity (m³/s) at ion temperature `t` (keV): the published Bosch-Hale formula for the
reactions that have one, unless cross sections are asked for; otherwise the Maxwell average of the cross
section. -/
def thermalReactivity (u : SI) (m : Masses ℝ) (method : ReactivityMethod) (r : Reaction) (t : ℝ) : ℝ :=
  if method ≠ .XS ∧ hasBoschHale r then boschHaleValue r t
  else maxwellAverage (r.crossSection u m).reducedMass u.keV (t * u.keV)
    (npInterp (r.crossSection u m).table)

/-- Physical constants: positive units, plausible masses, every reaction exothermic. -/
structure GoodConstants (u : SI) (m : Masses ℝ) (c : ℝ) : Prop where
  data : PhysicalData u m
  c_pos : 0 < c
  exothermic : ∀ r, 0 < massDefect m r

/-- Profiles that have a value at every normalised radius: non-negative densities, and temperatures for
which every channel of the source has a reactivity. -/
structure GoodPlasma (method : ReactivityMethod) (st : List Reaction) (tr : Transport) : Prop where
  temperature : ∀ rho, ∃ T, tr.temperature.value rho = .ok T ∧ ∀ r ∈ st, goodTemperature method r T
  deuterium : ∀ rho, ∃ n, tr.deuterium.value rho = .ok n ∧ 0 ≤ n
  tritium : ∀ rho, ∃ n, tr.tritium.value rho = .ok n ∧ 0 ≤ n
  helium3 : ∀ rho, ∃ n, tr.helium3.value rho = .ok n ∧ 0 ≤ n

/-- At normalised radius `rho` the plasma is hot and contains both reactants of `r`. -/
structure Burns (tr : Transport) (r : Reaction) (rho : ℝ) : Prop where
  temperature : ∀ T, tr.temperature.value rho = .ok T → 0 < T
  deuterium : ∀ n, tr.deuterium.value rho = .ok n →
    ((reactants r).1 = .deuterium ∨ (reactants r).2 = .deuterium) → 0 < n
  tritium : ∀ n, tr.tritium.value rho = .ok n →
    ((reactants r).1 = .tritium ∨ (reactants r).2 = .tritium) → 0 < n
  helium3 : ∀ n, tr.helium3.value rho = .ok n →
    ((reactants r).1 = .helium3 ∨ (reactants r).2 = .helium3) → 0 < n

/-- A flux map built by `FluxMap.from_parameterisation` with at least five points per surface from an
accepted plasma: any Fausser plasma, or a Sauter plasma without squareness. -/
def PlasmaMap (fm : ParamMap) : Prop :=
  ∃ (p : Parameterisation) (r0 z0 aspect kappa delta shift sq : ℝ) (l : LCFSInfo ℝ) (rho : List ℝ)
    (n : ℕ) (conv : FluxConvention),
    (p = .fausser ∨ sq = 0) ∧ LCFSInfo.make r0 z0 aspect kappa delta shift sq = .ok l ∧ 5 ≤ n ∧
    fromParameterisation p l rho n conv = .ok fm

end
end TNS.Spec
