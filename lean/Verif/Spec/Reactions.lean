import Verif.Model.Reactions
/-
Specification of reaction naming and of the meaning of a source-type request, written without the
helpers of the model (only its data types).
-/

set_option autoImplicit false

namespace TNS.Spec

/-- All accepted spellings of a reaction as a string. -/
def spelling : List (String × Reaction) :=
  [("D_T", .DT), ("D-T", .DT),
   ("D_D", .DDn), ("D-D", .DDn),
   ("T_T", .TT), ("T-T", .TT),
   ("D_He3", .DHe3), ("D-He3", .DHe3)]

/-- `denotes a r`: the argument `a` is an accepted way of naming reaction `r`. -/
def Denotes : ReactionArg → Reaction → Prop
  | .str s, r => (s, r) ∈ spelling
  | .member r', r => r' = r
  | .other, _ => False

/-- `Asked a r`: the source-type argument `a` asks for reaction `r` explicitly. -/
def Asked : SourceArg → Reaction → Prop
  | .none, r => r = .DT ∨ r = .DDn ∨ r = .TT
  | .str s, r => Denotes (.str s) r
  | .member r', r => r' = r
  | .list l, r => ∃ a ∈ l, Denotes a r
  | .other, _ => False

/-- `Wanted a r`: `r` is asked for, or it is the proton branch of D-D and the neutron branch is
asked for. -/
def Wanted (a : SourceArg) (r : Reaction) : Prop :=
  Asked a r ∨ (r = .DDp ∧ Asked a .DDn)

/-- The argument can be understood: every item of it denotes a reaction. -/
def Understood : SourceArg → Prop
  | .none => True
  | .str s => ∃ r, Denotes (.str s) r
  | .member _ => True
  | .list l => ∀ a ∈ l, ∃ r, Denotes a r
  | .other => False

/-- The documented order of channels. -/
def channelOrder : List Reaction := [.DT, .DDn, .DDp, .TT, .DHe3]

end TNS.Spec
