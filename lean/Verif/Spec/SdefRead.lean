import Verif.Spec.SdefFile
import Verif.Spec.Mcnp
import Verif.Model.SdefText
/-
The cards of an SDEF file, and its numbers, found by the names of the cards.
-/

set_option autoImplicit false

namespace TNS.Spec
noncomputable section

/-- The fixed part of the source card. -/
def sdefDecl : List (List Char) :=
  ["sdef", "erg=d2", "par=1", "wgt=1", "pos", "=", "0", "0", "0", "axs", "=", "0", "0", "1",
    "rad", "=", "d3", "ext", "=", "frad", "d4"].map String.toList

/-- The fields of the energy cards at ion temperature `T`; `pairs` is the T-T spectrum. -/
def energyFields (r : Neutronic) (T : ℝ) (pairs : List (ℝ × ℝ)) : List (List (List Char)) :=
  match r with
  | .D_T => [["SP2".toList, "-4".toList, formatE 6 (T / 1000), "-1".toList]]
  | .D_D => [["SP2".toList, "-4".toList, formatE 6 (T / 1000), "-2".toList]]
  | .T_T => [["SI2".toList, "H".toList] ++ formatE 5 (0 : ℝ) :: pairs.map (fun q => formatE 5 (q.1 / 1000)),
      ["SP2".toList, "D".toList] ++ formatE 5 (0 : ℝ) :: pairs.map (fun q => formatE 5 q.2)]

/-- The fields of the position cards. -/
def positionFields (c : SdefCards ℝ) : List (List (List Char)) :=
  ["SI3".toList :: "H".toList :: c.si3.map (formatE 5),
    "SP3".toList :: "D".toList :: c.sp3.map (formatE 5),
    "DS4".toList :: "S".toList :: c.ds4.map formatD] ++
  c.vertical.flatMap (fun v =>
    [("SI".toList ++ formatD v.1) :: "H".toList :: v.2.1.map (formatE 5),
      ("SP".toList ++ formatD v.1) :: "D".toList :: v.2.2.map (formatE 5)])

/-- The fields after the name and the key letter of the only card of that name. -/
def cardArgs (cards : List (List (List Char))) (name key : List Char) : Option (List (List Char)) :=
  match cards.filter (fun c => c.head? = some name) with
  | [c] => if c.take 2 = [name, key] then some (c.drop 2) else none
  | _ => none

/-- The numbers of a card. -/
def cardNums (cards : List (List (List Char))) (name key : List Char) : Option (List ℝ) := do
  let a ← cardArgs cards name key
  a.mapM (fun f => readFloat f)

/-- The position distributions: the radial histogram SI3, SP3, the list DS4 of the distributions of the
extent, and for each entry `n` of that list the histogram SIn, SPn. -/
def readSdef (cards : List (List (List Char))) : Option (SdefCards ℝ) := do
  let si3 ← cardNums cards "SI3".toList "H".toList
  let sp3 ← cardNums cards "SP3".toList "D".toList
  let d ← cardArgs cards "DS4".toList "S".toList
  let ds4 ← d.mapM (fun f => readNat f)
  let vertical ← d.mapM (fun f => do
    let n ← readNat f
    let si ← cardNums cards ("SI".toList ++ f) "H".toList
    let sp ← cardNums cards ("SP".toList ++ f) "D".toList
    some (n, si, sp))
  some { si3 := si3, sp3 := sp3, ds4 := ds4, vertical := vertical }

/-- The cards with every number `x` replaced by `φ x`. -/
def mapNums (φ : ℝ → ℝ) (c : SdefCards ℝ) : SdefCards ℝ where
  si3 := c.si3.map φ
  sp3 := c.sp3.map φ
  ds4 := c.ds4
  vertical := c.vertical.map (fun v => (v.1, v.2.1.map φ, v.2.2.map φ))

/-- Zero or a magnitude between `10^-400` and `10^400`; every finite double is like this. -/
def InRange (x : ℝ) : Prop := x = 0 ∨ ((10 : ℝ) ^ (-400 : ℤ) ≤ |x| ∧ |x| ≤ (10 : ℝ) ^ (400 : ℤ))

/-- Every number on the position cards is in range, and the distribution numbers are positive and have at
most 40 digits. -/
def Printable (c : SdefCards ℝ) : Prop :=
  (∀ x ∈ c.si3, InRange x) ∧ (∀ x ∈ c.sp3, InRange x) ∧ (∀ n ∈ c.ds4, 0 < n ∧ n < 10 ^ 40) ∧
    ∀ v ∈ c.vertical, (0 < v.1 ∧ v.1 < 10 ^ 40) ∧ (∀ x ∈ v.2.1, InRange x) ∧ ∀ x ∈ v.2.2, InRange x

/-- The citation data has an author and no line ends inside its entries. -/
def CleanCitation (c : Citation) : Prop :=
  c.authors ≠ [] ∧ (∀ x ∈ c.repository, x ≠ '\n') ∧ ∀ a ∈ c.authors,
    (∀ x ∈ a.given, x ≠ '\n') ∧ (∀ x ∈ a.family, x ≠ '\n') ∧ ∀ x ∈ a.affiliation, x ≠ '\n'

end
end TNS.Spec
