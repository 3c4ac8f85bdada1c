import Verif.Model.Workflow
/-
Model of `TransportInformation.plot` (`tokamak_neutron_source/transport.py` 178-213).
-/

set_option autoImplicit false

namespace TNS
noncomputable section

/-- One line of a plot. `transport.py` 197, 202-207. -/
structure Curve where
  label : String
  style : String
  points : List (ℝ × ℝ)

/-- The density lines and the temperature line of the figure. `transport.py` 189-207. -/
structure TransportFigure where
  densities : List Curve
  temperature : Curve

/-- The values that matplotlib accepts for `ls` (`Line2D.set_linestyle`, not in `/repo`; used by `transport.py` 197). -/
def lineStyles : List String :=
  ["-", "--", "-.", ":", "None", " ", "", "none", "solid", "dashed", "dashdot", "dotted"]

/-- `ax.plot(x, y, ls=ls, label=label)` (`transport.py` 197): another `ls` is a `ValueError`. -/
def axPlot (x y : List ℝ) (ls label : String) : Except Err Curve :=
  if ls ∈ lineStyles then .ok ⟨label, ls, List.zip x y⟩ else .error .valueError

open Classical in
/-- `np.allclose(d, 0.0)` with the default tolerances (`transport.py` 196): the relative one multiplies 0. -/
def allcloseZero (d : List ℝ) : Bool := d.all fun x => decide (|x| ≤ 1 / 10 ^ 8)

/-- The loop over the species (`transport.py` 193-197). -/
def plotSpecies (x : List ℝ) : List (List ℝ × String × String) → Except Err (List Curve)
  | [] => .ok []
  | (d, label, ls) :: rest => do
    if allcloseZero d then plotSpecies x rest
    else
      let c ← axPlot x d ls label
      let cs ← plotSpecies x rest
      .ok (c :: cs)

/-- `TransportInformation.plot` (`transport.py` 178-213) for the `rho_profile` of the object.  Axis labels, legends and the
colour are left out. -/
def Transport.plot (tr : Transport) (rho : List ℝ) : Except Err TransportFigure := do
  let d ← rho.mapM tr.deuterium.value
  let t ← rho.mapM tr.tritium.value
  let h ← rho.mapM tr.helium3.value
  let cs ← plotSpecies rho [(d, "D", "-."), (t, "T", "--"), (h, "³He", ".")]
  let temp ← rho.mapM tr.temperature.value
  .ok ⟨cs, ⟨"$T_{i}$", "-", List.zip rho temp⟩⟩

end
end TNS
