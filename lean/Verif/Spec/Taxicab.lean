import Mathlib.Data.Real.Basic
/-
Length of a polygonal line measured along the axes.
-/

set_option autoImplicit false

namespace TNS.Spec

/-- Length of the polygonal line through `pts` in the taxicab metric: the sum of `|Δx| + |Δz|` of its edges. -/
def taxicab : List (ℝ × ℝ) → ℝ
  | a :: b :: l => |b.1 - a.1| + |b.2 - a.2| + taxicab (b :: l)
  | _ => 0

end TNS.Spec
