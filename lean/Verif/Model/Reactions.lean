import Verif.Model.Basic
/-
Model of `tokamak_neutron_source/reactions.py` (reaction enums and parsing) and of the
source-type parsing in `tokamak_neutron_source/main.py`.
-/

set_option autoImplicit false

namespace TNS

/-- `class Reactions` (`reactions.py` 84-110): neutronic channels. -/
inductive Neutronic
  | D_T | D_D | T_T
  deriving DecidableEq, Repr

/-- `class AneutronicReactions` (`reactions.py` 113-131). -/
inductive Aneutronic
  | D_D | D_He3
  deriving DecidableEq, Repr

/-- `AllReactions = Reactions | AneutronicReactions` (`reactions.py` 134).
Members of different enum classes are never equal, even with the same member name. -/
inductive Reaction
  | n (r : Neutronic)
  | a (r : Aneutronic)
  deriving DecidableEq, Repr

/-- `Reactions.D_T` -/ abbrev Reaction.DT : Reaction := .n .D_T
/-- `Reactions.D_D` (neutron branch) -/ abbrev Reaction.DDn : Reaction := .n .D_D
/-- `AneutronicReactions.D_D` (proton branch) -/ abbrev Reaction.DDp : Reaction := .a .D_D
/-- `Reactions.T_T` -/ abbrev Reaction.TT : Reaction := .n .T_T
/-- `AneutronicReactions.D_He3` -/ abbrev Reaction.DHe3 : Reaction := .a .D_He3

/-- The `num_neutrons` column of the enum tables (`reactions.py` 90, 98, 106, 119, 127). -/
def Reaction.numNeutrons : Reaction → Nat
  | .n .D_T => 1
  | .n .D_D => 1
  | .n .T_T => 2
  | .a .D_D => 0
  | .a .D_He3 => 0

/-- The `label` column of the enum tables (`reactions.py` 88, 96, 104, 117, 125). -/
def Reaction.label : Reaction → String
  | .n .D_T => "D + T → ⁴He + n"
  | .n .D_D => "D + D → ³He + n"
  | .n .T_T => "T + T → ⁴He + 2n"
  | .a .D_D => "D + D → T + p"
  | .a .D_He3 => "D + ³He → ⁴He + p"

/-- `isinstance(reaction, Reactions)` (`openmc_interface.py` 158) and
`reaction not in AneutronicReactions` (`mcnp_interface.py` 67). -/
def Reaction.isNeutronic : Reaction → Bool
  | .n _ => true
  | .a _ => false

/-- A single reaction argument: a string, a member, or any other Python object. `reactions.py` 147-183. -/
inductive ReactionArg
  | str (s : String)
  | member (r : Reaction)
  | other
  deriving DecidableEq, Repr

/-- `Reactions[string]`, `none` for `KeyError` (`reactions.py` 173). -/
def Neutronic.ofName (s : String) : Option Neutronic :=
  if s = "D_T" then some .D_T
  else if s = "D_D" then some .D_D
  else if s = "T_T" then some .T_T
  else none

/-- `AneutronicReactions[string]`, `none` for `KeyError` (`reactions.py` 176). -/
def Aneutronic.ofName (s : String) : Option Aneutronic :=
  if s = "D_D" then some .D_D
  else if s = "D_He3" then some .D_He3
  else none

/-- `reaction.replace("-", "_")` (`reactions.py` 171). -/
def dashToUnderscore (s : String) : String := s.map (fun c => if c = '-' then '_' else c)

/-- `_parse_reaction` (`reactions.py` 147-183). -/
def parseReaction : ReactionArg → Except Err Reaction
  | .str s =>
    let string := dashToUnderscore s
    match Neutronic.ofName string with
    | some r => .ok (.n r)
    | none =>
      match Aneutronic.ofName string with
      | some r => .ok (.a r)
      | none => .error .reactivityError
  | .member r => .ok r
  | .other => .error .reactivityError

/-- The `source_type` argument: `None`, a string or member, a list, or any other object. `main.py` 49-59. -/
inductive SourceArg
  | none
  | str (s : String)
  | member (r : Reaction)
  | list (l : List ReactionArg)
  | other
  deriving DecidableEq, Repr

/-- `CUSTOM_ORDER` (`main.py` 40-46). -/
def customOrder : List Reaction := [.DT, .DDn, .DDp, .TT, .DHe3]

/-- `ordering[r]` with `ordering = {r: i for i, r in enumerate(CUSTOM_ORDER)}` (`main.py` 69);
no `KeyError` is possible since every member is listed. -/
def ordering (r : Reaction) : Nat := customOrder.idxOf r

/-- `[x for x in source_type if not (x in seen or seen.add(x))]` (`main.py` 65-66), with the
`seen` set as accumulator. -/
def uniqueFrom (seen : List Reaction) : List Reaction → List Reaction
  | [] => []
  | x :: xs => if x ∈ seen then uniqueFrom seen xs else x :: uniqueFrom (x :: seen) xs

/-- `if Reactions.D_D in source_type: source_type.append(AneutronicReactions.D_D)`
(`main.py` 62-63). -/
def addProtonBranch (l : List Reaction) : List Reaction :=
  if Reaction.DDn ∈ l then l ++ [.DDp] else l

/-- Lines 61-70 of `main.py`: add the second D-D channel, drop duplicates, `sorted` (stable). -/
def finishSourceType (l : List Reaction) : List Reaction :=
  (uniqueFrom [] (addProtonBranch l)).mergeSort (fun a b => decide (ordering a ≤ ordering b))

/-- `_parse_source_type` (`main.py` 49-70). -/
def parseSourceType : SourceArg → Except Err (List Reaction)
  | .none => .ok (finishSourceType [.DDn, .DT, .TT])
  | .str s => do
      let r ← parseReaction (.str s)
      .ok (finishSourceType [r])
  | .member r => do
      let r ← parseReaction (.member r)
      .ok (finishSourceType [r])
  | .list l => do
      let rs ← l.mapM parseReaction
      .ok (finishSourceType rs)
  | .other => .error .reactivityError

end TNS
