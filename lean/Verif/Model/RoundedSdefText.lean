import Verif.Model.SdefText
import Verif.Model.RoundedTT
/-
The text of the SDEF files with rounding in the energy cards, see `Verif.Model.SdefText` and `Verif.Model.RoundedTT`.  The
parameter `km` is the scale factor that `raw_uc` multiplies by from keV to MeV; the others are those of `ttSpectrumR`.
-/

set_option autoImplicit false

namespace TNS
noncomputable section

/-- The energy cards of `sdef_header` (`mcnp_interface.py` 186-202), see `energyText`.  An ion temperature that is not finite
stays what it is. -/
def energyTextR (A : Arith) (ke ks km : ℝ) (r : Neutronic) (ionTemp : XF ℝ) : Except Err (List Char) :=
  match r, ionTemp with
  | .D_T, .fin t => .ok ("SP2 -4 ".toList ++ formatE 6 (A.rd (t * km)) ++ " -1".toList ++ ['\n'])
  | .D_D, .fin t => .ok ("SP2 -4 ".toList ++ formatE 6 (A.rd (t * km)) ++ " -2".toList ++ ['\n'])
  | .T_T, .fin t => do
    let s ← ttSpectrumR A ke ks t .DATA
    let si ← textWrap (joinBlank (formatE 5 (0 : ℝ) ::
      (s.1.map (fun q => A.rd (q.1 * km))).map (formatE 5))) 6 80 1
    let sp ← textWrap (joinBlank (formatE 5 (0 : ℝ) ::
      (s.1.map (fun q => q.2)).map (formatE 5))) 6 80 1
    .ok ("SI2 H ".toList ++ si ++ ("SP2 D ".toList ++ sp))
  | r, t => energyText r t

/-- `sdef_header` (`mcnp_interface.py` 151-236), see `sdefHeader`. -/
def sdefHeaderR (A : Arith) (ke ks km : ℝ) (cit : Citation) (r : Neutronic) (total : ℝ) (ionTemp : XF ℝ) :
    Except Err (List Char) := do
  let data ← energyTextR A ke ks km r ionTemp
  .ok (nlText [ruleLine, "C SDEF Card for Tokamak Neutron Source generated by:".toList,
      "C ".toList ++ cit.repository, ruleLine, "C".toList, ruleLine, "C Authors:".toList] ++
    (authorsText cit ++ ['\n']) ++
    nlText [ruleLine, "C".toList, ruleLine, "C Method:".toList,
      "C 1. Create a cylinder that encloses the entire torus.".toList,
      "C 2. Then slice the cylinder along the R-axis.".toList,
      "C 3. Finally, define the vertical distribution, assuming rotational symmetry.".toList,
      ruleLine, "C".toList, ruleLine,
      "C Reaction channel: ".toList ++ (Reaction.n r).label.toList,
      "C Total source neutrons: ".toList ++ formatE 6 total ++ " n/s".toList,
      ruleLine, "C".toList,
      "C 1. Neutron Emission Probability - Set up cylindrical source".toList, "C".toList] ++
    nlText ["sdef erg=d2 par=1 wgt=1".toList,
      "      pos = 0 0 0    $ Center = origin".toList,
      "      axs = 0 0 1    $ Cylinder points along the Z axis".toList,
      "      rad = d3       $ radial distribution defined by distribution 3".toList,
      "      ext = frad d4  $ extent distribution defined by distribution 4 which is dependent on distribution rad".toList] ++
    data ++
    nlText ["C".toList, "C 2. Neutron Emission Probability - Radial Distribution".toList, "C".toList])

/-- The content of one SDEF file (`mcnp_interface.py` 71-107), see `sdefText`. -/
def sdefTextR (A : Arith) (ke ks km : ℝ) (cit : Citation) (r : Neutronic) (f : SdefFile ℝ) :
    Except Err (List Char) := do
  let header ← sdefHeaderR A ke ks km cit r f.total f.ionTemp
  let si ← textWrap (joinBlank ("SI3".toList :: "H".toList :: f.cards.si3.map (formatE 5))) 6 80 1
  let sp ← textWrap (joinBlank ("SP3".toList :: "D".toList :: f.cards.sp3.map (formatE 5))) 6 80 1
  let ds ← textWrap (joinBlank ("DS4".toList :: "S".toList :: f.cards.ds4.map formatD)) 6 80 1
  let vs ← f.cards.vertical.mapM verticalText
  .ok (header ++ si ++ sp ++ ds ++
    nlText ["C".toList, "C 3. Neutron Emission Probability - Vertical Distribution".toList, "C".toList] ++
    vs.flatten)

end
end TNS
