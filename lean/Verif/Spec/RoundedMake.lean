import Verif.Model.RoundedMake
import Verif.Spec.RoundedReactivity
import Verif.Spec.Source
import Mathlib.Analysis.Real.Pi.Bounds
/-
Specification vocabulary for the constructor with rounding: the reaction rate of a cell by the formula of the
physics, with no rounding.
-/

set_option autoImplicit false

namespace TNS.Spec
noncomputable section

/-- The value of a profile, 0 if it has none. -/
def valueAt (f : ℝ → Except Err ℝ) (psi : ℝ) : ℝ :=
  match f psi with
  | .ok y => y
  | .error _ => 0

/-- The density of a species at a flux coordinate. -/
def density (tr : TransportView ℝ) (psi : ℝ) : Species → ℝ
  | .deuterium => valueAt tr.deuterium psi
  | .tritium => valueAt tr.tritium psi
  | .helium3 => valueAt tr.helium3 psi

/-- Reactions per second in the cell of side `L` revolved about the axis at radius `p.1` and height `p.2`: rate
density at its centre times its volume `2πxL²`. -/
def cellRate (sv : Reaction → ℝ → ℝ) (tr : TransportView ℝ) (psi : ℝ → ℝ → ℝ) (L : ℝ) (r : Reaction) (p : ℝ × ℝ) : ℝ :=
  rateDensity (density tr (psi p.1 p.2)) (sv r (valueAt tr.temperature (psi p.1 p.2))) r *
    (2 * Real.pi * p.1 * L ^ 2)

/-- Reactions per second of a channel in the given cells. -/
def channelRate (sv : Reaction → ℝ → ℝ) (tr : TransportView ℝ) (psi : ℝ → ℝ → ℝ) (L : ℝ) (cs : List (ℝ × ℝ))
    (r : Reaction) : ℝ :=
  (cs.map (cellRate sv tr psi L r)).sum

/-- Fusion power of the given cells over the channels `st`. -/
def cellsPower (sv : Reaction → ℝ → ℝ) (Q : Reaction → ℝ) (tr : TransportView ℝ) (psi : ℝ → ℝ → ℝ) (L : ℝ)
    (cs : List (ℝ × ℝ)) (st : List Reaction) : ℝ :=
  (st.map fun r => channelRate sv tr psi L cs r * Q r).sum

/-- The centres of the cells of a source. -/
def centres (s : Source ℝ) : List (ℝ × ℝ) := s.x.zip s.z

/-- A plasma the claims are about: at the given points densities are not negative, temperatures lie between 0.2 and 100 keV,
and the points are not left of the axis of revolution. -/
def PlasmaOK (tr : TransportView ℝ) (psi : ℝ → ℝ → ℝ) (cs : List (ℝ × ℝ)) : Prop :=
  ∀ p ∈ cs, 0 ≤ p.1 ∧ (∀ sp, 0 ≤ density tr (psi p.1 p.2) sp) ∧
    0.2 ≤ valueAt tr.temperature (psi p.1 p.2) ∧ valueAt tr.temperature (psi p.1 p.2) ≤ 100

/-- Reactivities are computed for every non-empty list of temperatures in the range, and they are those of `sv`, which are
positive, with a relative error of at most `e`. -/
structure AccurateReactivity (rx : Reaction → List ℝ → Except Err (List ℝ)) (sv : Reaction → ℝ → ℝ) (e : ℝ)
    (r : Reaction) : Prop where
  pos : ∀ T, 0.2 ≤ T → T ≤ 100 → 0 < sv r T
  succeeds : ∀ ts : List ℝ, ts ≠ [] → (∀ T ∈ ts, 0.2 ≤ T ∧ T ≤ 100) → ∃ ys, rx r ts = .ok ys
  close : ∀ ts : List ℝ, (∀ T ∈ ts, 0.2 ≤ T ∧ T ≤ 100) → ∀ ys, rx r ts = .ok ys →
    List.Forall₂ (fun T y => |y - sv r T| ≤ e * sv r T) ts ys

end
end TNS.Spec
