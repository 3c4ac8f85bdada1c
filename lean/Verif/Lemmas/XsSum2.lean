import Verif.Lemmas.NodeSums
import Verif.Data.XsRows2
import Verif.Data.XsAcc3
import Verif.Data.XsAcc2
/-
Generated by scripts/gen_xs.py: the sums over rows 400 to 599, evaluated by the kernel.
-/

set_option autoImplicit false
set_option maxRecDepth 100000

namespace TNS

theorem xsSum2 : beqLL (rows 79228162514264337593543950336 Data.xsRows2 Data.xsAcc2) Data.xsAcc3 = true := by
  decide +kernel

end TNS
