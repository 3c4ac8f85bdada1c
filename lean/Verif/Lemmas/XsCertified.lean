import Verif.Lemmas.XsWeights
import Verif.Data.XsRows0
import Verif.Data.XsRows1
import Verif.Data.XsRows2
import Verif.Data.XsRows3
import Verif.Data.XsRows4
/-
The certificates of `XsWeights`, checked by the kernel.
-/

set_option autoImplicit false
set_option maxRecDepth 100000

namespace TNS
open Spec

/-- One row per energy of the grid. -/
def xsAll : List (ℕ × ℕ × ℕ) :=
  Data.xsRows0 ++ (Data.xsRows1 ++ (Data.xsRows2 ++ (Data.xsRows3 ++ Data.xsRows4)))

theorem xsAll_length : xsAll.length = 1000 := by decide +kernel

theorem xsAll_gq : gqCheck (2 ^ 200) (2 ^ 96) (2 ^ 104) 0 xsAll = true := by decide +kernel

/-- The weights of the reactions are packed into one number. -/
def pack : ℕ := 2 ^ 208

def cDT (V : ℕ) : ℕ := V % pack
def cDDn (V : ℕ) : ℕ := V / pack % pack
def cDDp (V : ℕ) : ℕ := V / pack / pack

theorem xsAll_wDT : wCheck 50301510 30160493 25150755 15080246 cDT Data.dtRows.dropLast 1000000000 xsAll
    = true := by decide +kernel

theorem xsAll_wDDn : wCheck 2 1 2 1 cDDn Data.ddnRows.dropLast 1000000000 xsAll = true := by
  decide +kernel

theorem xsAll_wDDp : wCheck 2 1 2 1 cDDp Data.ddpRows.dropLast 1000000000 xsAll = true := by
  decide +kernel

end TNS
