import Verif.Lemmas.NodeSums
import Verif.Data.XsRows3
import Verif.Data.XsAcc4
import Verif.Data.XsAcc3
/-
Generated by scripts/gen_xs.py: the sums over rows 600 to 799, evaluated by the kernel.
-/

set_option autoImplicit false
set_option maxRecDepth 100000

namespace TNS

theorem xsSum3 : beqLL (rows 79228162514264337593543950336 Data.xsRows3 Data.xsAcc3) Data.xsAcc4 = true := by
  decide +kernel

end TNS
