import Verif.Model.Source
import Verif.Model.Reactivity
import Verif.Model.Flux
import Verif.Model.PointInPath
/-
The constructor of `TokamakNeutronSource` with the package's own reactivities, profiles, energies and
flux map in place of the parameters of `Source.init`.
-/

set_option autoImplicit false

namespace TNS
noncomputable section

/-- The profile calls of the constructor (`main.py` 113-116). -/
def Transport.view (tr : Transport) : TransportView ℝ :=
  { temperature := tr.temperature.value
    deuterium := tr.deuterium.value
    tritium := tr.tritium.value
    helium3 := tr.helium3.value }

/-- The transport object with its profile objects read from the heap. `transport.py` 61-65. -/
def TransportRef.read (h : Heap) (r : TransportRef) : Option Transport := do
  let d ← h[r.deuterium]?
  let t ← h[r.tritium]?
  let he ← h[r.helium3]?
  let temp ← h[r.temperature]?
  some { deuterium := d, tritium := t, helium3 := he, temperature := temp }

/-- What the constructor uses of a flux map built by `from_parameterisation` (`main.py` 107-111):
LCFS, O-point, and `psi_norm`, a parameter here (scipy's Clough-Tocher interpolator, `flux.py`
633-637).  The LCFS test of `sample_space_2d` is matplotlib's `Path.contains_points`
(`space.py` 50, 66). -/
def ParamMap.view (fm : ParamMap) (psiNorm : ℝ → ℝ → ℝ) : FluxMapView ℝ :=
  { lcfsX := fm.lcfs.map Prod.fst
    lcfsZ := fm.lcfs.map Prod.snd
    inside := containsPoint fm.lcfs
    oX := fm.oPoint.x
    oZ := fm.oPoint.z
    psiNorm := psiNorm }

/-- `TokamakNeutronSource(transport, flux_map, source_type, cell_side_length, total_fusion_power,
reactivity_method)` (`main.py` 96-141) with `reactivity` (`reactivity.py` 93-133) and the
`total_energy` column of the reactions.  `c` is the energy in J of one atomic mass unit. -/
def makeSource (u : SI) (m : Masses ℝ) (c : ℝ) (tr : Transport) (fm : FluxMapView ℝ)
    (arg : SourceArg) (L : ℝ) (power : Option ℝ) (method : ReactivityMethod) :
    Except Err (Source ℝ) :=
  Source.init Real.pi (totalEnergy m c) (reactivity u m method) tr.view fm arg L power

end
end TNS
