import Verif.Spec.RoundedMake
import Verif.Spec.RoundedSdef
/-
Specification vocabulary for the way from the plasma to the Monte Carlo input: the numbers of the exported sources by
the formulas of the physics, with no rounding and no source object in between.
-/

set_option autoImplicit false

namespace TNS.Spec
noncomputable section

/-- Neutrons per second of the reaction `r` in the cell at `p`. -/
def channelNeutrons (sv : Reaction → ℝ → ℝ) (tr : TransportView ℝ) (psi : ℝ → ℝ → ℝ) (L : ℝ) (r : Reaction)
    (p : ℝ × ℝ) : ℝ :=
  (neutronYield r : ℝ) * cellRate sv tr psi L r p

/-- Neutrons per second of all reactions `st` in the cell at `p`. -/
def neutronRate (sv : Reaction → ℝ → ℝ) (tr : TransportView ℝ) (psi : ℝ → ℝ → ℝ) (L : ℝ) (st : List Reaction)
    (p : ℝ × ℝ) : ℝ :=
  (st.map fun r => channelNeutrons sv tr psi L r p).sum

/-- Ion temperature at `p`. -/
def temperatureAt (tr : TransportView ℝ) (psi : ℝ → ℝ → ℝ) (p : ℝ × ℝ) : ℝ := valueAt tr.temperature (psi p.1 p.2)

/-- The OpenMC source `ring` stands for the cell at `p`, up to a relative error `ε`.  Its strength is the share of the
cell in the neutrons of all cells `cs`; its energy distribution has one entry for each reaction that gives neutrons
there, in the order of `st`, with the spectrum of that reaction at the ion temperature of the plasma there, weighted by the
share of the reaction in the neutrons of the cell; the weights add up to 1; and it fills the cell, in cm, with a radial
density in proportion to the radius. -/
structure RingIdeal {E : Type} (spectrum : Reaction → ℝ → Except Err E) (sv : Reaction → ℝ → ℝ) (tr : TransportView ℝ)
    (psi : ℝ → ℝ → ℝ) (L : ℝ) (st : List Reaction) (cs : List (ℝ × ℝ)) (ε : ℝ) (p : ℝ × ℝ) (ring : Ring ℝ E) : Prop where
  strength : ∃ σ : ℝ, ring.strength = .fin σ ∧
    RelClose ε σ (neutronRate sv tr psi L st p / (cs.map (neutronRate sv tr psi L st)).sum)
  energy : List.Forall₂
    (fun (r : Reaction) (q : ℝ × E) =>
      RelClose ε q.1 (channelNeutrons sv tr psi L r p / neutronRate sv tr psi L st p) ∧
      spectrum r (temperatureAt tr psi p) = .ok q.2)
    (st.filter fun r => decide (0 < channelNeutrons sv tr psi L r p)) ring.energy
  weights : |(ring.energy.map Prod.fst).sum - 1| ≤ ε
  extent : |ring.rLo - 100 * (p.1 - L / 2)| ≤ ε * (100 * (|p.1| + L)) ∧
    |ring.rHi - 100 * (p.1 + L / 2)| ≤ ε * (100 * (|p.1| + L)) ∧
    |ring.zLo - 100 * (p.2 - L / 2)| ≤ ε * (100 * (|p.2| + L)) ∧
    |ring.zHi - 100 * (p.2 + L / 2)| ≤ ε * (100 * (|p.2| + L))
  density : 0 ≤ ring.rLo → 0 < ring.rHi →
    RelClose ε ring.pLo (ring.rLo / (ring.rLo + ring.rHi)) ∧ RelClose ε ring.pHi (ring.rHi / (ring.rLo + ring.rHi))

/-- The bin `b` (cm) of an SDEF file stands for the cell at `p` among the cells `cs` of side `L`: its lower edges are those of
the cell; its upper edges are the lower edges of the next column, and of the next cell in the column, or the upper
edges of the cell where there is none; it is not empty; and it is sampled with probability `share`. -/
structure BinIdeal (L : ℝ) (cs : List (ℝ × ℝ)) (share : ℝ) (p : ℝ × ℝ) (b : SBin ℝ) : Prop where
  rLo : EdgeClose L p.1 b.rLo (p.1 - L / 2)
  zLo : EdgeClose L p.2 b.zLo (p.2 - L / 2)
  rHi : (∃ x' ∈ cs.map Prod.fst, p.1 < x' ∧ (∀ y ∈ cs.map Prod.fst, y ≤ p.1 ∨ x' ≤ y) ∧
      EdgeClose L x' b.rHi (x' - L / 2)) ∨
    ((∀ y ∈ cs.map Prod.fst, y ≤ p.1) ∧ EdgeClose L p.1 b.rHi (p.1 + L / 2))
  zHi : (∃ z', (p.1, z') ∈ cs ∧ p.2 < z' ∧ (∀ y, (p.1, y) ∈ cs → y ≤ p.2 ∨ z' ≤ y) ∧
      EdgeClose L z' b.zHi (z' - L / 2)) ∨
    ((∀ y, (p.1, y) ∈ cs → y ≤ p.2) ∧ EdgeClose L p.2 b.zHi (p.2 + L / 2))
  nonempty : b.rLo < b.rHi ∧ b.zLo < b.zHi
  prob : RelClose (22 / 10 ^ 6) b.prob share

end
end TNS.Spec
