import Verif.Model.Basic
import Verif.Model.Format
/-
Model of `_text_wrap` (`mcnp_interface.py` 244-275) on lists of characters, including the part of
the standard library's `textwrap.wrap` and `textwrap.indent` it uses.
-/

set_option autoImplicit false

namespace TNS

/-- `str.isspace` on the characters that occur (blank, newline). -/
def isBlank (c : Char) : Bool := c = ' ' || c = '\n'

/-- `TextWrapper._split`: maximal runs of blanks / non-blanks.  Simplification: the splitting of
hyphenated words is left out; `textwrap` only splits at a hyphen preceded by two letters (or
letter-hyphen-word character) and followed by a letter, which no field of a card contains.
Part of `textwrap.wrap`, `mcnp_interface.py` 273. -/
def chunksOf : List Char → List (List Char)
  | [] => []
  | c :: l =>
    match chunksOf l with
    | (d :: ds) :: r => if isBlank c = isBlank d then (c :: d :: ds) :: r else [c] :: (d :: ds) :: r
    | r => [c] :: r

/-- Inner loop of `TextWrapper._wrap_chunks`: take chunks while they fit in `w` columns, `n` columns
being used already; returns the line and the remaining chunks. -/
def fillLine (w : ℕ) : ℕ → List (List Char) → List (List Char) × List (List Char)
  | _, [] => ([], [])
  | n, c :: cs =>
    if n + c.length ≤ w then
      let r := fillLine w (n + c.length) cs
      (c :: r.1, r.2)
    else ([], c :: cs)

/-- Drop a leading blank chunk, except on the first line (`drop_whitespace`). -/
def dropLead (first : Bool) : List (List Char) → List (List Char)
  | [] => []
  | c :: cs => if !first && c.all isBlank then cs else c :: cs

/-- Drop a trailing blank chunk (`drop_whitespace`). Part of `textwrap.wrap`, `mcnp_interface.py` 273. -/
def dropTrail (line : List (List Char)) : List (List Char) :=
  match line.getLast? with
  | none => []
  | some c => if c.all isBlank then line.dropLast else line

/-- Outer loop of `TextWrapper._wrap_chunks`.  Simplification: a word longer than the width stays
whole on its own line here (`textwrap` breaks it); the theorems assume fields no longer than the
width.  The first argument bounds the number of iterations, one per chunk is enough. -/
def wrapGo (w : ℕ) : ℕ → Bool → List (List Char) → List (List Char)
  | 0, _, _ => []
  | k + 1, first, chunks =>
    if chunks = [] then [] else
      let r := fillLine w 0 (dropLead first chunks)
      let r := if r.1 = [] then (r.2.take 1, r.2.drop 1) else r
      let line := dropTrail r.1
      if line = [] then wrapGo w k first r.2 else line.flatten :: wrapGo w k false r.2

/-- `textwrap.wrap(text, width=w)`. `mcnp_interface.py` 273. -/
def wrap (w : ℕ) (text : List Char) : List (List Char) :=
  wrapGo w (chunksOf text).length true (chunksOf text)

/-- `str.strip()`. `mcnp_interface.py` 274. -/
def strip (l : List Char) : List Char := ((l.dropWhile isBlank).reverse.dropWhile isBlank).reverse

/-- `textwrap.indent` of lines: the prefix goes to lines that are not blank. -/
def indentLine (n : ℕ) (line : List Char) : List Char :=
  if line.all isBlank then line else List.replicate n ' ' ++ line

/-- `_text_wrap(long_line, indent, max_length, new_lines)` (`mcnp_interface.py` 244-275). -/
def textWrap (longLine : List Char) (indent maxLength newLines : ℕ) : Except Err (List Char) :=
  if indent < 6 then .error .valueError
  else .ok (strip (List.intercalate ['\n'] ((wrap maxLength longLine).map (indentLine indent))) ++
    List.replicate newLines '\n')

/-- `" ".join(words)`. `mcnp_interface.py` 83-96, 137, 144. -/
def joinBlank (words : List (List Char)) : List Char := List.intercalate [' '] words

section
variable {K : Type} [Field K] [LinearOrder K] [IsStrictOrderedRing K] [FloorRing K]

/-- A card with label words (such as `SI3`, `H`) and numbers in `.5e`
(`mcnp_interface.py` 82-92, 138-147), wrapped with the given indent. -/
def cardText (label : List (List Char)) (nums : List K) (indent : ℕ) : Except Err (List Char) :=
  textWrap (joinBlank (label ++ nums.map (formatE 5))) indent 80 1

/-- `indent_offset = len(str(i + offset)) + 5` (`mcnp_interface.py` 134) for distribution number
`n = i + offset`. -/
def indentOffset (n : ℕ) : ℕ := (Nat.digits 10 n).length + 5

end
end TNS
