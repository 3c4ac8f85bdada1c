import Verif.Model.RoundedReactivity
import Verif.Model.RoundedSpace
/-
The whole constructor of `TokamakNeutronSource` with rounding: the grid, the reactivities, the strengths and the
normalisation are those of `Verif.Model.RoundedSpace`, `RoundedReactivity` and `Rounded`.
-/

set_option autoImplicit false

namespace TNS
noncomputable section

/-- `reactivity` (`reactivity.py` 93-133) with rounding, for a parsed reaction.  `xs` stands for
`_reactivity_from_xs` (`reactivity.py` 234-265). -/
def reactivityR (A : Arith) (F : MathLib) (xs : Reaction → List ℝ → Except Err (List ℝ))
    (method : ReactivityMethod) (r : Reaction) (ts : List ℝ) : Except Err (List ℝ) :=
  match method with
  | .AUTO =>
    match r.boschHale with
    | some _ => reactivityBoschHaleR A F ts r
    | none => xs r ts
  | .BOSCH_HALE =>
    match r.boschHale with
    | some _ => reactivityBoschHaleR A F ts r
    | none => xs r ts
  | .XS => xs r ts

/-- `TokamakNeutronSource.__init__` (`main.py` 96-141) with rounding.  `pts` are the vertices of the LCFS, `(oX, oZ)`
the O-point; `psi` and `tr` are the functions `psi_norm` and `value` of the profiles as they are computed.
The reactivities do not depend on the loop that uses them (`main.py` 122-130), so they are computed first. -/
def Source.makeR (A : Arith) (F : MathLib) (xs : Reaction → List ℝ → Except Err (List ℝ)) (pi : ℝ)
    (Q : Reaction → ℝ) (pts : List (ℝ × ℝ)) (oX oZ : ℝ) (psi : ℝ → ℝ → ℝ) (tr : TransportView ℝ)
    (arg : SourceArg) (L : ℝ) (power : Option ℝ) (method : ReactivityMethod) : Except Err (Source ℝ) := do
  let st ← parseSourceType arg
  let smp := sampleSpace2dR A pi pts oX oZ L
  let psiNorm := List.zipWith psi smp.x smp.z
  let temp ← psiNorm.mapM tr.temperature
  let d ← psiNorm.mapM tr.deuterium
  let t ← psiNorm.mapM tr.tritium
  let h ← psiNorm.mapM tr.helium3
  let ys ← st.mapM fun r => reactivityR A F xs method r temp
  let s := Source.initR A st smp.x smp.z smp.dVolume temp d t h L fun r => Dict.getD (st.zip ys) r []
  match power with
  | none => .ok s
  | some P => s.normaliseR A Q P

end
end TNS
