import Verif.Model.NormThreads
/-
Specification vocabulary for normalisations in several threads.
-/

set_option autoImplicit false

namespace TNS.Spec
noncomputable section

/-- The call is over: it returned or raised. -/
def NormThread.Over (th : NormThread) : Prop := th.pc = .done ∨ th.pc = .raised

/-- One thread for each pair (source, power), all at the beginning of the call. -/
def startAll (w : World) (calls : List (ℕ × ℝ)) : Pool :=
  { world := w, threads := calls.map (fun c => NormThread.start w c.1 c.2) }

end
end TNS.Spec
