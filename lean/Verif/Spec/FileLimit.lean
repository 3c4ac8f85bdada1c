import Verif.Spec.FileWorkflow
import Verif.Spec.SdefLimit
import Mathlib.Analysis.Convex.Segment
/-
Specification for C105: equilibrium files whose magnetic axis keeps away from the boundary, and time slices with both
hydrogen fuels.
-/

set_option autoImplicit false

namespace TNS.Spec

/-- The magnetic axis of the file does not lie on its boundary curve. -/
def AxisClear (f : EqdskFile) : Prop :=
  ∀ (i : ℕ) (a b : ℝ × ℝ), f.bdry[i]? = some a → f.bdry[i + 1]? = some b → (f.xmag, f.zmag) ∉ segment ℝ a b

/-- Deuterium and tritium at every radius of the file. -/
def FuelledFrame (f : JspFrame ℝ) : Prop :=
  (∀ d ∈ f.nd, 0 < d) ∧ ∀ d ∈ f.nt, 0 < d

end TNS.Spec
