import Mathlib.Algebra.Field.Basic
import Mathlib.Data.Nat.Digits.Defs
/-
A reader for numbers in scientific notation, as any program reading an SDEF file would interpret
them: `[-]d.ddddde±xx`.
-/

set_option autoImplicit false

namespace TNS.Spec

/-- Value of a string of digit characters, `none` if there is another character. -/
def readNat (l : List Char) : Option ℕ :=
  if l.all (fun c => '0' ≤ c ∧ c ≤ '9') then some (l.foldl (fun a c => 10 * a + (c.toNat - 48)) 0)
  else none

variable {K : Type} [Field K]

/-- Value of an unsigned number `d.ddd e ± xx`. -/
def readUnsigned (l : List Char) : Option K :=
  match l.span (· ≠ 'e') with
  | (c :: '.' :: cs, 'e' :: s :: ex) => do
    let m ← readNat (c :: cs)
    let x ← readNat ex
    if s = '+' then some ((m : K) * 10 ^ ((x : ℤ) - (cs.length : ℤ)))
    else if s = '-' then some ((m : K) * 10 ^ (-(x : ℤ) - (cs.length : ℤ)))
    else none
  | _ => none

/-- Value of a number with optional minus sign. -/
def readFloat (l : List Char) : Option K :=
  match l with
  | '-' :: l => (readUnsigned l).map (fun v => -v)
  | l => readUnsigned l

end TNS.Spec
