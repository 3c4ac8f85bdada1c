import Verif.Model.Reactions
import Verif.Model.Space
/-
Model of the class `TokamakNeutronSource` (`tokamak_neutron_source/main.py` 73-211) and of
`density_weighted_reactivity` (`tokamak_neutron_source/reactivity.py` 43-90).
-/

set_option autoImplicit false

namespace TNS

/-- What the source uses of a `FluxMap` (`flux.py` 689-802): LCFS, O-point and `psi_norm`.
`inside` is the point-in-polygon test of the LCFS (matplotlib). -/
structure FluxMapView (K : Type) where
  lcfsX : List K
  lcfsZ : List K
  inside : K × K → Bool
  oX : K
  oZ : K
  psiNorm : K → K → K

/-- What the source uses of a `TransportInformation` (`transport.py` 57-65): the `value` methods of
the four profiles, which may raise. -/
structure TransportView (K : Type) where
  temperature : K → Except Err K
  deuterium : K → Except Err K
  tritium : K → Except Err K
  helium3 : K → Except Err K

/-- The attributes of a `TokamakNeutronSource` that change or are read by the exports
(`main.py` 105-138). -/
structure Source (K : Type) where
  sourceType : List Reaction
  x : List K
  z : List K
  dVolume : List K
  cellSideLength : K
  temperature : List K
  strength : Dict Reaction (List K)
  numReactions : Dict Reaction K
  numNeutrons : Dict Reaction K
  deriving DecidableEq

section
/-! The following need only the arithmetic operations; they are used with exact numbers here and with
IEEE special values in `Verif.Model.Special`. -/
variable {K : Type} [Zero K] [Add K] [Mul K] [Div K]

/-- `calculate_total_fusion_power` (`main.py` 169-187).  `Q r` is `reaction.total_energy`. -/
def Source.totalPower (Q : Reaction → K) (s : Source K) : K :=
  (s.sourceType.map (fun r => ((s.strength.getD r []).map (· * Q r)).sum)).sum

/-- The loop body of `normalise_fusion_power` (`main.py` 208-211). -/
def Source.scaleReaction (f : K) (s : Source K) (r : Reaction) : Source K :=
  { s with
    strength := s.strength.modify r (fun l => l.map (· * f))
    numReactions := s.numReactions.modify r (· * f)
    numNeutrons := s.numNeutrons.modify r (· * f) }

/-- `normalise_fusion_power` (`main.py` 189-211) with whatever the division of `K` gives.  With no
reaction channel the total is the Python integer 0 and `total_fusion_power / 0` raises
`ZeroDivisionError`. -/
def Source.normaliseRaw (Q : Reaction → K) (P : K) (s : Source K) : Except Err (Source K) :=
  if s.sourceType = [] then .error .zeroDivisionError
  else .ok (s.sourceType.foldl (Source.scaleReaction (P / s.totalPower Q)) s)

end

section
variable {K : Type} [Field K]

/-- The `match reaction` giving `n1_n2` (`reactivity.py` 78-88), elementwise on arrays. -/
def pairDensity (r : Reaction) (d t h : List K) : List K :=
  match r with
  | .n .D_D | .a .D_D => (List.zipWith (· * ·) d d).map (· / 2)
  | .n .D_T => List.zipWith (· * ·) d t
  | .n .T_T => (List.zipWith (· * ·) t t).map (· / 2)
  | .a .D_He3 => List.zipWith (· * ·) d h

/-- `density_weighted_reactivity` (`reactivity.py` 43-90) for a parsed reaction.  `sv` stands for
`reactivity(temp_kev, reaction, method)`, modelled in `Verif.Model.Reactivity`. -/
def densityWeightedReactivity (sv : Reaction → List K → Except Err (List K))
    (temp d t h : List K) (r : Reaction) : Except Err (List K) := do
  let s ← sv r temp
  .ok (List.zipWith (· * ·) (pairDensity r d t h) s)

/-- One iteration of the loop over `self.source_type` in the constructor (`main.py` 122-135). -/
def Source.addReaction (sv : Reaction → List K → Except Err (List K))
    (d t h : List K) (s : Source K) (r : Reaction) : Except Err (Source K) := do
  let n1n2sigma ← densityWeightedReactivity sv s.temperature d t h r
  let str := List.zipWith (· * ·) n1n2sigma s.dVolume
  let num := str.sum
  .ok { s with
    strength := s.strength.set r str
    numReactions := s.numReactions.set r num
    numNeutrons := s.numNeutrons.set r (num * (r.numNeutrons : K)) }

/-- `source_rate` (`main.py` 143-148). -/
def Source.sourceRate (s : Source K) : K := s.numNeutrons.values.sum

/-- `source_T_rate` (`main.py` 150-167). -/
def Source.sourceTRate (s : Source K) : K :=
  [s.numReactions.getD .DT 0, 2 * s.numReactions.getD .TT 0].sum

variable [DecidableEq K]

/-- `normalise_fusion_power` (`main.py` 189-211) in exact arithmetic: a zero total power (where
the code goes on with `inf`/`nan`, see `Verif.Model.Special`) is marked `nonFinite`. -/
def Source.normalise (Q : Reaction → K) (P : K) (s : Source K) : Except Err (Source K) :=
  if s.sourceType ≠ [] ∧ s.totalPower Q = 0 then .error .nonFinite
  else s.normaliseRaw Q P

/-- A history of `normalise_fusion_power` calls on one source object. `main.py` 189-211. -/
def Source.normalises (Q : Reaction → K) (s : Source K) (Ps : List K) : Except Err (Source K) :=
  Ps.foldlM (fun s P => s.normalise Q P) s

end

section
variable {K : Type} [Field K] [LinearOrder K] [IsStrictOrderedRing K] [FloorRing K]

/-- `TokamakNeutronSource.__init__` (`main.py` 96-141).
`sv` is `reactivity` for the chosen `reactivity_method`, `Q` the `total_energy` table. -/
def Source.init (pi : K) (Q : Reaction → K) (sv : Reaction → List K → Except Err (List K))
    (tr : TransportView K) (fm : FluxMapView K) (arg : SourceArg) (L : K) (power : Option K) :
    Except Err (Source K) := do
  let st ← parseSourceType arg
  let smp := sampleSpace2d pi fm.lcfsX fm.lcfsZ fm.inside fm.oX fm.oZ L
  let psiNorm := List.zipWith fm.psiNorm smp.x smp.z
  let temp ← psiNorm.mapM tr.temperature
  let d ← psiNorm.mapM tr.deuterium
  let t ← psiNorm.mapM tr.tritium
  let h ← psiNorm.mapM tr.helium3
  let s0 : Source K :=
    { sourceType := st, x := smp.x, z := smp.z, dVolume := smp.dVolume, cellSideLength := L,
      temperature := temp, strength := [], numReactions := [], numNeutrons := [] }
  let s ← st.foldlM (Source.addReaction sv d t h) s0
  match power with
  | none => .ok s
  | some P => s.normalise Q P

end
end TNS
