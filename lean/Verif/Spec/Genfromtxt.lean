import Verif.Spec.Format
import Mathlib.Data.Real.Basic
/-
What the lines of a table of numbers mean: words separated by white space, comments from `#` on, decimal numbers.
-/

set_option autoImplicit false

namespace TNS.Spec

/-- White space. -/
def White (c : Char) : Prop := c ∈ [' ', '\t', '\n', '\r', '\x0b', '\x0c']

/-- The text consists of the given words, separated by white space. -/
inductive Spaced : List Char → List (List Char) → Prop
  | blank (b : List Char) (h : ∀ c ∈ b, White c) : Spaced b []
  | word (pre w rest : List Char) (ws : List (List Char)) (hp : ∀ c ∈ pre, White c) (hw : w ≠ [])
      (hn : ∀ c ∈ w, ¬ White c) (hr : rest = [] ∨ ∃ c t, rest = c :: t ∧ White c) (h : Spaced rest ws) :
      Spaced (pre ++ w ++ rest) (w :: ws)

/-- The line consists of the given words and possibly a comment. -/
def ReadsAs (l : List Char) (ws : List (List Char)) : Prop :=
  ∃ body comment : List Char, l = body ++ comment ∧ '#' ∉ body ∧ (comment = [] ∨ comment.head? = some '#') ∧
    Spaced body ws

/-- The exponent of a number: nothing, or `e` or `E`, a sign and digits. -/
def Exponent (t : List Char) (k : ℤ) : Prop :=
  (t = [] ∧ k = 0) ∨ ∃ (c : Char) (d : List Char) (n : ℕ), (c = 'e' ∨ c = 'E') ∧ d ≠ [] ∧ readNat d = some n ∧
    ((t = c :: d ∧ k = n) ∨ (t = c :: '+' :: d ∧ k = n) ∨ (t = c :: '-' :: d ∧ k = -n))

/-- A decimal number without sign. -/
def Unsigned (t : List Char) (v : ℝ) : Prop :=
  ∃ (ip pt fp ex : List Char) (n : ℕ) (k : ℤ), t = ip ++ pt ++ fp ++ ex ∧ ip ++ fp ≠ [] ∧
    (pt = ['.'] ∨ (pt = [] ∧ fp = [])) ∧ readNat (ip ++ fp) = some n ∧ Exponent ex k ∧
    v = (n : ℝ) * 10 ^ (k - (fp.length : ℤ))

/-- A decimal number. -/
def Number (t : List Char) (v : ℝ) : Prop :=
  Unsigned t v ∨ (∃ t', t = '+' :: t' ∧ Unsigned t' v) ∨ ∃ t', t = '-' :: t' ∧ Unsigned t' (-v)

/-- A line with the two numbers of a row. -/
def RowLine (l : List Char) (p : ℝ × ℝ) : Prop := ∃ a b, ReadsAs l [a, b] ∧ Number a p.1 ∧ Number b p.2

end TNS.Spec
