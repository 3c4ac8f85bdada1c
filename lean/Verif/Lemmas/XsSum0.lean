import Verif.Lemmas.NodeSums
import Verif.Data.XsRows0
import Verif.Data.XsAcc1
/-
Generated by scripts/gen_xs.py: the sums over rows 0 to 199, evaluated by the kernel.
-/

set_option autoImplicit false
set_option maxRecDepth 100000

namespace TNS

/-- The empty sums. -/
def xsZero : List (List Nat) := List.replicate 66 [0, 0, 0, 0, 0, 0, 0, 0, 0]

theorem xsSum0 : beqLL (rows 79228162514264337593543950336 Data.xsRows0 xsZero) Data.xsAcc1 = true := by
  decide +kernel

end TNS
