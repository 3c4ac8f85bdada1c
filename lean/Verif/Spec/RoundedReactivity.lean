import Verif.Model.RoundedReactivity
import Verif.Spec.Rounded
import Verif.Spec.Reactivity
/-
Specification vocabulary for the Bosch-Hale reactivity with rounding: how accurate the library functions are, and
the published value for a reaction.
-/

set_option autoImplicit false

namespace TNS.Spec
noncomputable section

/-- The library functions have a relative error of at most `v` (where the exact result is a positive real). -/
structure AccurateLib (F : MathLib) (v : ℝ) : Prop where
  exp : ∀ x, |F.exp x - Real.exp x| ≤ v * Real.exp x
  sqrt : ∀ x, 0 ≤ x → |F.sqrt x - Real.sqrt x| ≤ v * Real.sqrt x
  pow : ∀ x y, 0 < x → |F.pow x y - x ^ y| ≤ v * x ^ y

/-- Library functions without error. -/
def exactLib : MathLib := ⟨Real.exp, Real.sqrt, fun x y => x ^ y⟩

/-- Correctly rounded library functions. -/
def roundedLib : MathLib := ⟨fun x => round53 (Real.exp x), fun x => round53 (Real.sqrt x), fun x y => round53 (x ^ y)⟩

/-- The published reactivity (m³/s) of a reaction at a temperature in keV, for the reactions that have one. -/
def publishedReactivity : Reaction → ℝ → ℝ
  | .n .D_T, t => boschHaleDT t
  | .n .D_D, t => boschHaleDDn t
  | .a .D_D, t => boschHaleDDp t
  | _, _ => 0

end
end TNS.Spec
