import Verif.Spec.Format
/-
How a wrapped card is read: lines separated by newlines, fields separated by blanks or newlines.
-/

set_option autoImplicit false

namespace TNS.Spec

/-- The lines of a text. -/
def linesOf (t : List Char) : List (List Char) := t.splitOn '\n'

/-- The fields of a text: what lies between blanks and line ends. -/
def fieldsOf (t : List Char) : List (List Char) :=
  (t.splitOnP (fun c => c = ' ' || c = '\n')).filter (fun f => f ≠ [])

/-- A field: non-empty, no blank, no line end. -/
def IsField (w : List Char) : Prop := w ≠ [] ∧ ∀ c ∈ w, c ≠ ' ' ∧ c ≠ '\n'

end TNS.Spec
