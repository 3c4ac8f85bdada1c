import Verif.Spec.RoundedProfile
import Verif.Spec.RoundedExport
import Verif.Spec.RoundedXs
/-
Specification for C104: a source computed with slightly wrong profiles on a slightly wrong flux map, compared with the
plasma it is meant for.
-/

set_option autoImplicit false

namespace TNS.Spec
noncomputable section

/-- `f'` at `x'` is `f` at `x` to the relative accuracy `δ`. -/
def NearAt (δ : ℝ) (f' : ℝ → Except Err ℝ) (x' : ℝ) (f : ℝ → Except Err ℝ) (x : ℝ) : Prop :=
  ∃ y' y, f' x' = .ok y' ∧ f x = .ok y ∧ |y' - y| ≤ δ * y

/-- At the point `p`, temperature and densities read off the flux map `psi'` and the profiles `tr'` are those of the plasma
with flux map `psi` and profiles `tr`, to the relative accuracy `δ`. -/
structure CellAgrees (δ : ℝ) (tr' : TransportView ℝ) (psi' : ℝ → ℝ → ℝ) (tr : TransportView ℝ) (psi : ℝ → ℝ → ℝ)
    (p : ℝ × ℝ) : Prop where
  temperature : NearAt δ tr'.temperature (psi' p.1 p.2) tr.temperature (psi p.1 p.2)
  deuterium : NearAt δ tr'.deuterium (psi' p.1 p.2) tr.deuterium (psi p.1 p.2)
  tritium : NearAt δ tr'.tritium (psi' p.1 p.2) tr.tritium (psi p.1 p.2)
  helium3 : NearAt δ tr'.helium3 (psi' p.1 p.2) tr.helium3 (psi p.1 p.2)

/-- The plasmas the claims are about: at the given points densities are not negative, temperatures lie between 0.21 and
99 keV, and the points are not left of the axis of revolution. -/
def PlasmaInside (tr : TransportView ℝ) (psi : ℝ → ℝ → ℝ) (cs : List (ℝ × ℝ)) : Prop :=
  ∀ p ∈ cs, 0 ≤ p.1 ∧ (∀ sp, 0 ≤ density tr (psi p.1 p.2) sp) ∧ 0.21 ≤ temperatureAt tr psi p ∧
    temperatureAt tr psi p ≤ 99

/-- A relative change of the temperature by `η` changes the reactivity of `r` by a factor of at most `1 + K η`. -/
def Conditioned (sv : Reaction → ℝ → ℝ) (K δ : ℝ) (r : Reaction) : Prop :=
  ∀ t t' : ℝ, 0.2 ≤ t → t ≤ 100 → 0.2 ≤ t' → t' ≤ 100 → |t' - t| ≤ δ * t → |sv r t' - sv r t| ≤ K * δ * sv r t

/-- The OpenMC source `ring` stands for the cell at `p`, up to a relative error `ε`: as `RingIdeal`, but the temperature of
the spectra is also only right to `ε`. -/
structure RingNear {E : Type} (spectrum : Reaction → ℝ → Except Err E) (sv : Reaction → ℝ → ℝ) (tr : TransportView ℝ)
    (psi : ℝ → ℝ → ℝ) (L : ℝ) (st : List Reaction) (cs : List (ℝ × ℝ)) (ε : ℝ) (p : ℝ × ℝ) (ring : Ring ℝ E) : Prop where
  strength : ∃ σ : ℝ, ring.strength = .fin σ ∧
    RelClose ε σ (neutronRate sv tr psi L st p / (cs.map (neutronRate sv tr psi L st)).sum)
  energy : List.Forall₂
    (fun (r : Reaction) (q : ℝ × E) =>
      RelClose ε q.1 (channelNeutrons sv tr psi L r p / neutronRate sv tr psi L st p) ∧
      ∃ T, RelClose ε T (temperatureAt tr psi p) ∧ spectrum r T = .ok q.2)
    (st.filter fun r => decide (0 < channelNeutrons sv tr psi L r p)) ring.energy
  weights : |(ring.energy.map Prod.fst).sum - 1| ≤ ε
  extent : |ring.rLo - 100 * (p.1 - L / 2)| ≤ ε * (100 * (|p.1| + L)) ∧
    |ring.rHi - 100 * (p.1 + L / 2)| ≤ ε * (100 * (|p.1| + L)) ∧
    |ring.zLo - 100 * (p.2 - L / 2)| ≤ ε * (100 * (|p.2| + L)) ∧
    |ring.zHi - 100 * (p.2 + L / 2)| ≤ ε * (100 * (|p.2| + L))
  density : 0 ≤ ring.rLo → 0 < ring.rHi →
    RelClose ε ring.pLo (ring.rLo / (ring.rLo + ring.rHi)) ∧ RelClose ε ring.pHi (ring.rHi / (ring.rLo + ring.rHi))

end
end TNS.Spec
