import Verif.Spec.Source
/-
Specification of physically meaningful inputs and source states.
-/

set_option autoImplicit false

namespace TNS.Spec
variable {K : Type} [Field K] [LinearOrder K] [IsStrictOrderedRing K] [FloorRing K]

/-- Inputs a physicist would supply: non-negative densities wherever the profiles have a value,
plasma at positive radius, reactivities that are non-negative and computed pointwise (one value per
temperature), exothermic reactions. -/
structure PhysicalInput (pi : K) (Q : Reaction → K) (sv : Reaction → List K → Except Err (List K))
    (tr : TransportView K) (fm : FluxMapView K) : Prop where
  pi_pos : 0 < pi
  Q_pos : ∀ r, 0 < Q r
  deuterium : ∀ p n, tr.deuterium p = .ok n → 0 ≤ n
  tritium : ∀ p n, tr.tritium p = .ok n → 0 ≤ n
  helium3 : ∀ p n, tr.helium3 p = .ok n → 0 ≤ n
  radius : ∀ p, fm.inside p = true → 0 < p.1
  sv_length : ∀ r T w, sv r T = .ok w → w.length = T.length
  sv_nonneg : ∀ r T w, sv r T = .ok w → ∀ v ∈ w, 0 ≤ v

/-- Life of a source with physical inputs and positive powers. -/
inductive PhysReachable (pi : K) (Q : Reaction → K)
    (sv : Reaction → List K → Except Err (List K)) : Source K → Prop
  | constructed {tr fm arg L power s} (hin : PhysicalInput pi Q sv tr fm)
      (hP : ∀ P, power = some P → 0 < P) (h : Source.init pi Q sv tr fm arg L power = .ok s) :
      PhysReachable pi Q sv s
  | normalised {s P s'} (hs : PhysReachable pi Q sv s) (hP : 0 < P)
      (h : s.normalise Q P = .ok s') : PhysReachable pi Q sv s'

end TNS.Spec
