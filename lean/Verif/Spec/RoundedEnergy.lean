import Verif.Spec.Energy
import Mathlib.Data.List.Forall2
/-
Specification for C99: when a computed spectrum agrees with another one, and when it is usable as a distribution.
-/

set_option autoImplicit false

namespace TNS.Spec

/-- The spectra have the same number of points; the energies agree to the relative accuracy `εe`, the densities to `εd`. -/
def SameSpectrum (εe εd : ℝ) (s' s : List (ℝ × ℝ)) : Prop :=
  List.Forall₂ (fun p' p : ℝ × ℝ => |p'.1 - p.1| ≤ εe * p.1 ∧ |p'.2 - p.2| ≤ εd * p.2) s' s

/-- Increasing positive energies, positive densities, unit area up to `ε`. -/
structure UsableSpectrum (ε : ℝ) (s : List (ℝ × ℝ)) : Prop where
  sorted : s.Pairwise (fun p q => p.1 < q.1)
  energies : ∀ p ∈ s, 0 < p.1
  densities : ∀ p ∈ s, 0 < p.2
  unit : |area s - 1| ≤ ε

end TNS.Spec
