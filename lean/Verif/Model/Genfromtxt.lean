import Verif.Model.Basic
import Mathlib.Data.List.SplitOn
import Mathlib.Data.Nat.Notation
import Mathlib.Data.Int.Notation
/-
`np.genfromtxt` on the text of a data file, as it is used in `reactivity_data.py` 40 and `energy_data.py` 48.
Follows numpy's `genfromtxt` with `comments="#"`, no delimiter, no header to skip and no names.
-/

set_option autoImplicit false

namespace TNS

/-- `str.isspace` for ASCII characters. `reactivity_data.py` 40, `energy_data.py` 48. -/
def isSpace (c : Char) : Bool :=
  c = ' ' || c = '\t' || c = '\n' || c = '\r' || c = '\x0b' || c = '\x0c'

/-- numpy's `LineSplitter`: chop off the comment, strip, and split at white space (`reactivity_data.py` 40,
`energy_data.py` 48).  Stripping has no effect before splitting at white space. -/
def splitLine (l : List Char) : List (List Char) :=
  ((l.takeWhile (fun c => c ≠ '#')).splitOnP isSpace).filter (fun w => !w.isEmpty)

/-- Value of a string of digits; `none` if there is another character.  For `reactivity_data.py` 40. -/
def digitsVal (l : List Char) : Option ℕ :=
  l.foldl (fun a c => a.bind fun n => if 48 ≤ c.toNat ∧ c.toNat ≤ 57 then some (10 * n + (c.toNat - 48)) else none)
    (some 0)

/-- The exponent part of a number, with its `e`. For `reactivity_data.py` 40. -/
def expVal : List Char → Option ℤ
  | [] => some 0
  | _ :: '-' :: d => if d.isEmpty then none else (digitsVal d).map (fun n => -(n : ℤ))
  | _ :: '+' :: d => if d.isEmpty then none else (digitsVal d).map (fun n => (n : ℤ))
  | _ :: d => if d.isEmpty then none else (digitsVal d).map (fun n => (n : ℤ))

/-- `float(token)` without sign as mantissa and decimal exponent. For `reactivity_data.py` 40. -/
def unsignedVal (l : List Char) : Option (ℤ × ℤ) :=
  let p := l.span (fun c => c ≠ 'e' && c ≠ 'E')
  let q := p.1.span (fun c => c ≠ '.')
  let frac := q.2.drop 1
  if (q.1 ++ frac).isEmpty then none
  else do
    let m ← digitsVal (q.1 ++ frac)
    let e ← expVal p.2
    some ((m : ℤ), e - (frac.length : ℤ))

/-- `float(token)` as mantissa and decimal exponent; `none`, which `genfromtxt` turns into `nan`, if the token is
not a number (`reactivity_data.py` 40, `energy_data.py` 48).  Simplification: `inf`, `nan` and underscores between
digits are not recognised as numbers. -/
def pyFloat : List Char → Option (ℤ × ℤ)
  | '-' :: l => (unsignedVal l).map (fun p => (-p.1, p.2))
  | '+' :: l => unsignedVal l
  | l => unsignedVal l

/-- The rows returned by `np.genfromtxt(file, comments="#", skip_footer=footer)`, for the lines of the file
(`reactivity_data.py` 40; `energy_data.py` 48 with `footer = 0`).  The first line with values fixes the number of
columns.  Lines with another number of values are remembered with their line number, counted from the first line
with values and counting every line; if there are any and `footer > 0`, those with a number beyond
`rows + malformed - footer` are counted against `footer`; the others raise `ValueError`.  What is left of `footer`
is cut off the end of the rows. -/
def genfromtxtText (footer : ℕ) (lines : List (List Char)) : Except Err (List (List (Option (ℤ × ℤ)))) :=
  let vals := (lines.map splitLine).dropWhile (fun v => v.isEmpty)
  let n := (vals.headD []).length
  let rows := vals.filter (fun v => !v.isEmpty && v.length == n)
  let invalid := ((vals.zipIdx 1).filter (fun p => !p.1.isEmpty && p.1.length != n)).map Prod.snd
  let skipped :=
    if 0 < footer then
      (invalid.filter (fun i : ℕ => decide ((rows.length : ℤ) + (invalid.length : ℤ) - (footer : ℤ) < (i : ℤ)))).length
    else 0
  if (invalid.take (invalid.length - skipped)) ≠ [] then .error .valueError
  else .ok ((rows.take (rows.length - (footer - skipped))).map (fun v => v.map pyFloat))

end TNS
