import Verif.Model.Source
import Mathlib.Algebra.Order.Ring.Rat
import Mathlib.Data.Rat.Floor
/-
Specification vocabulary for the neutron source: reactants, neutron yields, rate densities, the
life of a source object; and a concrete source over the rationals used by the examples.
-/

set_option autoImplicit false

namespace TNS.Spec

inductive Species
  | deuterium | tritium | helium3
  deriving DecidableEq, Repr

/-- Which two nuclei react. -/
def reactants : Reaction → Species × Species
  | .n .D_T => (.deuterium, .tritium)
  | .n .D_D => (.deuterium, .deuterium)
  | .n .T_T => (.tritium, .tritium)
  | .a .D_D => (.deuterium, .deuterium)
  | .a .D_He3 => (.deuterium, .helium3)

/-- Free neutrons produced per reaction. -/
def neutronYield : Reaction → Nat
  | .n .D_T => 1
  | .n .D_D => 1
  | .n .T_T => 2
  | .a .D_D => 0
  | .a .D_He3 => 0

/-- Tritons consumed per reaction. -/
def tritonsConsumed : Reaction → Nat
  | .n .D_T => 1
  | .n .T_T => 2
  | _ => 0

/-- Reaction rate density of reactants with densities `n` and reactivity `sv`:
`n_X n_Y <σv> / (1 + δ_XY)`. -/
def rateDensity {K : Type} [Field K] (n : Species → K) (sv : K) (r : Reaction) : K :=
  n (reactants r).1 * n (reactants r).2 * sv /
    (1 + if (reactants r).1 = (reactants r).2 then 1 else 0)

section
variable {K : Type} [Field K] [LinearOrder K] [IsStrictOrderedRing K] [FloorRing K]

/-- The states a source object can be in: constructed, or normalised from such a state. -/
inductive Reachable (pi : K) (Q : Reaction → K) (sv : Reaction → List K → Except Err (List K)) :
    Source K → Prop
  | constructed {tr fm arg L power s} (h : Source.init pi Q sv tr fm arg L power = .ok s) :
      Reachable pi Q sv s
  | normalised {s P s'} (hs : Reachable pi Q sv s) (h : s.normalise Q P = .ok s') :
      Reachable pi Q sv s'

end
end TNS.Spec

namespace TNS.Ex

/-- A square plasma `1 < x < 3`, `-1 < z < 1` with magnetic axis (2, 0). -/
def flux : FluxMapView ℚ :=
  { lcfsX := [1, 3, 3, 1, 1], lcfsZ := [-1, -1, 1, 1, -1]
    inside := fun p => decide (1 < p.1 ∧ p.1 < 3 ∧ -1 < p.2 ∧ p.2 < 1)
    oX := 2, oZ := 0
    psiNorm := fun x z => max |x - 2| |z| }

def transport : TransportView ℚ :=
  { temperature := fun p => .ok (10 * (1 - p) + 1)
    deuterium := fun p => .ok (3 * (1 - p))
    tritium := fun p => .ok (2 * (1 - p))
    helium3 := fun _ => .ok 0 }

def sv : Reaction → List ℚ → Except Err (List ℚ) := fun r T =>
  .ok (T.map (fun t => if r = .DT then t ^ 2 else t))

def Q : Reaction → ℚ
  | .n .D_T => 17 | .n .D_D => 3 | .n .T_T => 11 | .a .D_D => 4 | .a .D_He3 => 18

/-- The strengths of a 3 × 3 cell source with all four default channels. -/
def str : Reaction → List ℚ
  | .n .D_T => [243/2, 243/2, 243/2, 162, 2178, 162, 405/2, 405/2, 405/2]
  | .n .D_D => [243/16, 243/16, 243/16, 81/4, 297/2, 81/4, 405/16, 405/16, 405/16]
  | .a .D_D => [243/16, 243/16, 243/16, 81/4, 297/2, 81/4, 405/16, 405/16, 405/16]
  | .n .T_T => [27/4, 27/4, 27/4, 9, 66, 9, 45/4, 45/4, 45/4]
  | .a .D_He3 => []

def st : List Reaction := [.DT, .DDn, .DDp, .TT]

/-- The source constructed from `transport` and `flux` with 0.5 m cells (see `Ex.init_src`). -/
def src : Source ℚ :=
  { sourceType := st
    x := [3/2, 3/2, 3/2, 2, 2, 2, 5/2, 5/2, 5/2]
    z := [-1/2, 0, 1/2, -1/2, 0, 1/2, -1/2, 0, 1/2]
    dVolume := [9/4, 9/4, 9/4, 3, 3, 3, 15/4, 15/4, 15/4]
    cellSideLength := 1/2
    temperature := [6, 6, 6, 6, 11, 6, 6, 6, 6]
    strength := st.map (fun r => (r, str r))
    numReactions := st.map (fun r => (r, (str r).sum))
    numNeutrons := st.map (fun r => (r, (str r).sum * (Spec.neutronYield r : ℚ))) }

end TNS.Ex
