import Mathlib.Data.Int.Log
import Mathlib.Data.Nat.Digits.Defs
import Mathlib.Algebra.Order.Floor.Ring
/-
Model of Python's `f"{x:.<p>e}"` for a finite float `x`, as used for the numbers of the SDEF file
(`mcnp_interface.py` 83, 86, 88, 137, 139, 144, 146, 187-194 with p = 5; `:5e`, i.e. p = 6, in
lines 181 and 223).
CPython formats the exact value of the float correctly rounded (half to even); a float is an exact
rational, so there is no approximation here.  Simplification: `-0.0` (printed with a sign), `inf`
and `nan` are not modelled.
-/

set_option autoImplicit false

namespace TNS

section
variable {K : Type} [Field K] [LinearOrder K] [IsStrictOrderedRing K] [FloorRing K]

/-- Round to the nearest integer, halves to even.
Part of Python's `format`, used in `mcnp_interface.py` 83-88, 137-146, 189, 198-201, 223. -/
def roundHalfEven (y : K) : ℤ :=
  let f := ⌊y⌋
  if y - f < 1 / 2 then f
  else if 1 / 2 < y - f then f + 1
  else if f % 2 = 0 then f else f + 1

/-- A number in scientific notation: sign, `p + 1` significant digits as an integer, exponent of the
leading digit. `mcnp_interface.py` 83-88, 137-146, 189, 198-201, 223. -/
structure Sci where
  neg : Bool
  digits : ℕ
  exp : ℤ
  deriving DecidableEq, Repr

/-- The digits and exponent that `format(x, ".<p>e")` prints.
`mcnp_interface.py` 83-88, 137-146, 189, 198-201, 223. -/
def sciOf (p : ℕ) (x : K) : Sci :=
  if x = 0 then ⟨false, 0, 0⟩
  else
    let e := Int.log 10 |x|
    let d := (roundHalfEven (|x| * (10 : K) ^ ((p : ℤ) - e))).toNat
    if d = 10 ^ (p + 1) then ⟨decide (x < 0), 10 ^ p, e + 1⟩ else ⟨decide (x < 0), d, e⟩

end

/-- The characters '0' ... '9'. `mcnp_interface.py` 83-88, 137-146, 189, 198-201, 223. -/
def digitChar (d : ℕ) : Char := Char.ofNat (48 + d)

/-- Decimal digits of `n`, most significant first, padded with zeros to at least `w` places.
`mcnp_interface.py` 83-88, 137-146, 189, 198-201, 223. -/
def padDigits (w n : ℕ) : List Char :=
  (Nat.digits 10 n ++ List.replicate (w - (Nat.digits 10 n).length) 0).reverse.map digitChar

/-- The text: optional minus, one digit, point, `p` digits, `e`, sign, at least two exponent
digits. `mcnp_interface.py` 83-88, 137-146, 189, 198-201, 223. -/
def Sci.render (p : ℕ) (s : Sci) : List Char :=
  (if s.neg then ['-'] else []) ++
    (match padDigits (p + 1) s.digits with
     | [] => []
     | c :: cs => c :: '.' :: cs) ++
    ['e', if s.exp < 0 then '-' else '+'] ++ padDigits 2 s.exp.natAbs

section
variable {K : Type} [Field K] [LinearOrder K] [IsStrictOrderedRing K] [FloorRing K]

/-- `f"{x:.<p>e}"`.
Used in `mcnp_interface.py` 83-88, 137-146, 198-201 with `p = 5`, and 189, 223 with `p = 6` (`:5e`). -/
def formatE (p : ℕ) (x : K) : List Char := (sciOf p x).render p

end
end TNS
