import Mathlib.Algebra.Field.Defs
import Mathlib.Algebra.Order.Field.Basic
/-
Model of `trapezoid = np.trapezoid` (`tokamak_neutron_source/tools.py` 27) and `np.linspace`.
-/

set_option autoImplicit false

namespace TNS
variable {K : Type} [Field K]

/-- `trapezoid(y, x)` (`tools.py` 27; numpy: `(d * (y[1:] + y[:-1]) / 2.0).sum()` with
`d = diff(x)`) on the list of pairs `(x, y)`. -/
def trapezoid : List (K × K) → K
  | [] => 0
  | [_] => 0
  | p :: q :: l => (q.1 - p.1) * (q.2 + p.2) / 2 + trapezoid (q :: l)

/-- `np.linspace(a, b, n)` for `n ≥ 2` (used in `energy.py` 170, 201 and `energy_data.py` 56). -/
def linspace (a b : K) (n : ℕ) : List K :=
  (List.range n).map (fun i : ℕ => a + (i : K) * ((b - a) / ((n : K) - 1)))

end TNS
