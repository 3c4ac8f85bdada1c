import Verif.Lemmas.NodeSums
import Verif.Data.XsRows4
import Verif.Data.XsAcc5
import Verif.Data.XsAcc4
/-
Generated by scripts/gen_xs.py: the sums over rows 800 to 999, evaluated by the kernel.
-/

set_option autoImplicit false
set_option maxRecDepth 100000

namespace TNS

theorem xsSum4 : beqLL (rows 79228162514264337593543950336 Data.xsRows4 Data.xsAcc4) Data.xsAcc5 = true := by
  decide +kernel

end TNS
