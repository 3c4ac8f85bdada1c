import Verif.Lemmas.NodeSums
import Verif.Data.XsRows1
import Verif.Data.XsAcc2
import Verif.Data.XsAcc1
/-
Generated by scripts/gen_xs.py: the sums over rows 200 to 399, evaluated by the kernel.
-/

set_option autoImplicit false
set_option maxRecDepth 100000

namespace TNS

theorem xsSum1 : beqLL (rows 79228162514264337593543950336 Data.xsRows1 Data.xsAcc1) Data.xsAcc2 = true := by
  decide +kernel

end TNS
