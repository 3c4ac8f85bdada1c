import Verif.Model.Source
/-
`normalise_fusion_power` interrupted by an exception that comes from outside (`KeyboardInterrupt`, a timeout):
the loop has been executed up to some statement.
-/

set_option autoImplicit false

namespace TNS
section
variable {K : Type} [Field K] [LinearOrder K]

/-- The three statements in the loop of `normalise_fusion_power` (`main.py` 209-211), for one reaction. -/
inductive LoopStep
  | strength (r : Reaction)
  | reactions (r : Reaction)
  | neutrons (r : Reaction)
  deriving DecidableEq, Repr

/-- One statement (`main.py` 209-211). -/
def Source.loopStep (f : K) (s : Source K) : LoopStep → Source K
  | .strength r => { s with strength := s.strength.modify r (fun l => l.map (· * f)) }
  | .reactions r => { s with numReactions := s.numReactions.modify r (· * f) }
  | .neutrons r => { s with numNeutrons := s.numNeutrons.modify r (· * f) }

/-- The statements in the order of execution (`main.py` 208-211). -/
def loopSteps (st : List Reaction) : List LoopStep := st.flatMap (fun r => [.strength r, .reactions r, .neutrons r])

/-- The object after `normalise_fusion_power` (`main.py` 189-211) was interrupted when `k` statements of the loop had
been executed.  An in-place multiplication of an array is not interrupted: signals are handled between bytecodes.
Errors as in `Source.normalise`. -/
def Source.normaliseUpTo (Q : Reaction → K) (P : K) (k : ℕ) (s : Source K) : Except Err (Source K) :=
  if s.sourceType = [] then .error .zeroDivisionError
  else if s.totalPower Q = 0 then .error .nonFinite
  else .ok (((loopSteps s.sourceType).take k).foldl (Source.loopStep (P / s.totalPower Q)) s)

end
end TNS
