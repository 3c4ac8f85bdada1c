import Verif.Model.Mcnp
import Verif.Model.Wrap
import Verif.Model.Energy
import Mathlib.Data.Real.Archimedean
/-
Model of the text of an SDEF file (`mcnp_interface.py` 55-236): header, energy cards, position cards.
Characters are a list.  The content of `CITATION.cff` is a parameter.  Not modelled: the encoding of the
file (the reaction labels have characters outside ASCII, and `open` uses the encoding of the locale).
-/

set_option autoImplicit false

namespace TNS
noncomputable section

/-- One entry of `authors` in the citation file (`mcnp_interface.py` 176-183); a missing key is the
empty string. -/
structure Author where
  given : List Char
  family : List Char
  affiliation : List Char

/-- The part of the citation file that is used (`mcnp_interface.py` 175-184). -/
structure Citation where
  authors : List Author
  repository : List Char

/-- Lines, each ended by a newline. -/
def nlText (ls : List (List Char)) : List Char := ls.flatMap (· ++ ['\n'])

/-- `f"C    {given} {family}, {affiliation}"` (`mcnp_interface.py` 177-181). -/
def authorLine (a : Author) : List Char :=
  "C    ".toList ++ a.given ++ " ".toList ++ a.family ++ ",".toList ++ " ".toList ++ a.affiliation

/-- `"\n".join(...)` over the authors (`mcnp_interface.py` 176-183). -/
def authorsText (c : Citation) : List Char := List.intercalate ['\n'] (c.authors.map authorLine)

/-- `f"{x:5e}"`: six digits after the point, padded to five characters (`mcnp_interface.py` 189, 223). -/
def formatXF : XF ℝ → List Char
  | .fin x => formatE 6 x
  | .pinf => "  inf".toList
  | .ninf => " -inf".toList
  | .nan => "  nan".toList

/-- `raw_uc(T, "keV", "MeV")` (`mcnp_interface.py` 189): a quotient by 1000; infinities and `nan`
stay. -/
def xfMeV : XF ℝ → XF ℝ
  | .fin x => .fin (x / 1000)
  | .pinf => .pinf
  | .ninf => .ninf
  | .nan => .nan

/-- The energy cards of `sdef_header` (`mcnp_interface.py` 186-202), called `reaction_data` there.
For T-T with a temperature that is not finite the file would contain `nan`: marked `nonFinite` (as is the
result `None`, which the method `DATA` never gives). -/
def energyText (r : Neutronic) (ionTemp : XF ℝ) : Except Err (List Char) :=
  match r with
  | .D_T => .ok ("SP2 -4 ".toList ++ formatXF (xfMeV ionTemp) ++ " -1".toList ++ ['\n'])
  | .D_D => .ok ("SP2 -4 ".toList ++ formatXF (xfMeV ionTemp) ++ " -2".toList ++ ['\n'])
  | .T_T =>
    match ionTemp with
    | .fin t => do
      let s ← energySpectrum t (.n .T_T) .DATA
      match s.1 with
      | none => .error .nonFinite
      | some pairs =>
        let si ← textWrap (joinBlank (formatE 5 (0 : ℝ) ::
          (pairs.map (fun q => q.1 / 1000)).map (formatE 5))) 6 80 1
        let sp ← textWrap (joinBlank (formatE 5 (0 : ℝ) ::
          (pairs.map (fun q => q.2)).map (formatE 5))) 6 80 1
        .ok ("SI2 H ".toList ++ si ++ ("SP2 D ".toList ++ sp))
    | _ => .error .nonFinite

/-- The comment rule of the header. `mcnp_interface.py` 204. -/
def ruleLine : List Char := "C ============================".toList

/-- `sdef_header` (`mcnp_interface.py` 151-236). -/
def sdefHeader (cit : Citation) (r : Neutronic) (total : ℝ) (ionTemp : XF ℝ) :
    Except Err (List Char) := do
  let data ← energyText r ionTemp
  .ok (nlText [ruleLine, "C SDEF Card for Tokamak Neutron Source generated by:".toList,
      "C ".toList ++ cit.repository, ruleLine, "C".toList, ruleLine, "C Authors:".toList] ++
    (authorsText cit ++ ['\n']) ++
    nlText [ruleLine, "C".toList, ruleLine, "C Method:".toList,
      "C 1. Create a cylinder that encloses the entire torus.".toList,
      "C 2. Then slice the cylinder along the R-axis.".toList,
      "C 3. Finally, define the vertical distribution, assuming rotational symmetry.".toList,
      ruleLine, "C".toList, ruleLine,
      "C Reaction channel: ".toList ++ (Reaction.n r).label.toList,
      "C Total source neutrons: ".toList ++ formatE 6 total ++ " n/s".toList,
      ruleLine, "C".toList,
      "C 1. Neutron Emission Probability - Set up cylindrical source".toList, "C".toList] ++
    nlText ["sdef erg=d2 par=1 wgt=1".toList,
      "      pos = 0 0 0    $ Center = origin".toList,
      "      axs = 0 0 1    $ Cylinder points along the Z axis".toList,
      "      rad = d3       $ radial distribution defined by distribution 3".toList,
      "      ext = frad d4  $ extent distribution defined by distribution 4 which is dependent on distribution rad".toList] ++
    data ++
    nlText ["C".toList, "C 2. Neutron Emission Probability - Radial Distribution".toList, "C".toList])

/-- `f"{n:d}"` for a natural number (`mcnp_interface.py` 96, 139, 146). -/
def formatD (n : ℕ) : List Char := padDigits 1 n

/-- The SI and SP cards of one vertical distribution (`mcnp_interface.py` 133-149); the columns are not
empty, so joining with one blank is the same as the nested f-strings. -/
def verticalText (v : ℕ × List ℝ × List ℝ) : Except Err (List Char) := do
  let si ← textWrap (joinBlank (("SI".toList ++ formatD v.1) :: "H".toList :: v.2.1.map (formatE 5)))
    (indentOffset v.1) 80 1
  let sp ← textWrap (joinBlank (("SP".toList ++ formatD v.1) :: "D".toList :: v.2.2.map (formatE 5)))
    (indentOffset v.1) 80 1
  .ok (si ++ sp)

/-- The content of one SDEF file (`mcnp_interface.py` 71-107). -/
def sdefText (cit : Citation) (r : Neutronic) (f : SdefFile ℝ) : Except Err (List Char) := do
  let header ← sdefHeader cit r f.total f.ionTemp
  let si ← textWrap (joinBlank ("SI3".toList :: "H".toList :: f.cards.si3.map (formatE 5))) 6 80 1
  let sp ← textWrap (joinBlank ("SP3".toList :: "D".toList :: f.cards.sp3.map (formatE 5))) 6 80 1
  let ds ← textWrap (joinBlank ("DS4".toList :: "S".toList :: f.cards.ds4.map formatD)) 6 80 1
  let vs ← f.cards.vertical.mapM verticalText
  .ok (header ++ si ++ sp ++ ds ++
    nlText ["C".toList, "C 3. Neutron Emission Probability - Vertical Distribution".toList, "C".toList] ++
    vs.flatten)

end
end TNS
