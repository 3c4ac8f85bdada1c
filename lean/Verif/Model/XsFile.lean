import Verif.Model.Genfromtxt
import Verif.Model.Reactivity
import Verif.Data.XsText
/-
`ReactionCrossSection.__init__` (`reactivity_data.py` 21-55) on the text of a file.
-/

set_option autoImplicit false

namespace TNS
noncomputable section

/-- The number written as mantissa and exponent. For `reactivity_data.py` 40. -/
def decVal (p : ℤ × ℤ) : ℝ := (p.1 : ℝ) * 10 ^ p.2

/-- `energy, sigma = np.genfromtxt(file, comments="#", skip_footer=2, unpack=True)` (`reactivity_data.py` 40).
With another number of columns the assignment raises; with fewer than two rows the assignment or `interp1d` (line 55)
raises, which is anticipated here.  A `nan` is marked `nonFinite`. -/
def readXs (lines : List (List Char)) : Except Err (List (ℝ × ℝ)) := do
  let rows ← genfromtxtText 2 lines
  if rows.length ≤ 1 then .error .valueError
  else rows.mapM fun v =>
    match v with
    | [some a, some b] => .ok (decVal a, decVal b)
    | [_, _] => .error .nonFinite
    | _ => .error .valueError

/-- `MOLAR_MASSES[key]` (`constants.py` 285-293). -/
def molarMass (m : Masses ℝ) (key : List Char) : Except Err ℝ :=
  if key = "D".toList then .ok m.D
  else if key = "T".toList then .ok m.T
  else if key = "He".toList then .ok m.He
  else if key = "He3".toList then .ok m.He3
  else if key = "n".toList then .ok m.n
  else if key = "p".toList then .ok m.p
  else if key = "e".toList then .ok m.e
  else .error .keyError

/-- A `ReactionCrossSection` object with its `name` (`reactivity_data.py` 18-55). -/
structure XsObject where
  name : List Char
  xs : CrossSection

/-- `ReactionCrossSection(file_name)` (`reactivity_data.py` 21-55).  `folder` gives the lines of the files in
`data/cross_sections`. -/
def XsObject.init (u : SI) (m : Masses ℝ) (folder : List Char → Option (List (List Char))) (fileName : List Char) :
    Except Err XsObject :=
  match folder fileName with
  | none => .error .reactivityError
  | some lines => do
    let rows ← readXs lines
    match (fileName.takeWhile (fun c => c ≠ '.')).splitOn '_' with
    | collider :: target :: product1 :: product2 :: _ =>
      let m1 ← molarMass m collider
      let m2 ← molarMass m target
      .ok { name := collider ++ " + ".toList ++ target ++ " -> ".toList ++ product1 ++ " + ".toList ++ product2
            xs := .load u m1 m2 rows }
    | [_, _] | [_, _, _] => .error .indexError
    | _ => .error .valueError

/-- The `cross_section` column of the enum tables (`reactions.py` 91, 99, 107, 120, 128) with the file names of
`reactivity_data.py` 80-84. -/
def Reaction.xsFile : Reaction → List Char
  | .n .D_T => "D_T_He_n.txt".toList
  | .n .D_D => "D_D_He3_n.txt".toList
  | .n .T_T => "T_T_He_2n.txt".toList
  | .a .D_D => "D_D_T_p.txt".toList
  | .a .D_He3 => "D_He3_He_p.txt".toList

/-- The files that come with the package, in `data/cross_sections` (`reactivity_data.py` 33-38). -/
def shippedFiles (name : List Char) : Option (List (List Char)) :=
  if name = "D_T_He_n.txt".toList then some (Data.dtText.map String.toList)
  else if name = "D_D_He3_n.txt".toList then some (Data.ddnText.map String.toList)
  else if name = "T_T_He_2n.txt".toList then some (Data.ttText.map String.toList)
  else if name = "D_D_T_p.txt".toList then some (Data.ddpText.map String.toList)
  else if name = "D_He3_He_p.txt".toList then some (Data.dhe3Text.map String.toList)
  else none

end
end TNS
