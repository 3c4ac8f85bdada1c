import Verif.Spec.Wrap
/-
How MCNP reads the lines of an input file: at most `w` columns of a line are read; a blank line ends the
block of cards; a `C` within the first five columns, followed by a blank or the end of the line, makes
the line a comment; the rest of a line after `$` is a comment; a line that starts with five blanks
continues the card before it; blanks separate the fields of a card.
-/

set_option autoImplicit false

namespace TNS.Spec

/-- A blank line. -/
def isBlankLine (l : List Char) : Bool := l.all (fun c => c = ' ')

/-- A comment line. -/
def isComment (l : List Char) : Bool :=
  decide ((l.takeWhile (fun c => c = ' ')).length < 5) &&
    match l.dropWhile (fun c => c = ' ') with
    | [] => false
    | c :: rest => (c = 'C' || c = 'c') && (match rest with
      | [] => true
      | d :: _ => d = ' ')

/-- A continuation line. -/
def isContinuation (l : List Char) : Bool := l.take 5 = List.replicate 5 ' '

/-- The fields of a line, without a `$` comment. -/
def lineFields (l : List Char) : List (List Char) := fieldsOf (l.takeWhile (fun c => c ≠ '$'))

/-- Going up from the end of the file: the fields of the continuation lines seen but not yet attached
to a card, and the cards below. -/
def cardStep (l : List Char) (st : List (List Char) × List (List (List Char))) :
    List (List Char) × List (List (List Char)) :=
  if isComment l then st
  else if isContinuation l then (lineFields l ++ st.1, st.2)
  else ([], (lineFields l ++ st.1) :: st.2)

/-- The cards of a file, each the list of its fields. -/
def readCards (w : ℕ) (t : List Char) : List (List (List Char)) :=
  ((((linesOf t).map (List.take w)).takeWhile (fun l => !isBlankLine l)).foldr cardStep ([], [])).2

end TNS.Spec
