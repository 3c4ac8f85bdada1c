import Verif.Spec.RoundedExport
import Verif.Spec.RoundedTT
import Verif.Spec.EnergyLaw
/-
Specification vocabulary for C110: the OpenMC sources that stand for a plasma, energies included.
-/

set_option autoImplicit false

namespace TNS.Spec
noncomputable section

/-- The distribution `d'` is `d` up to relative errors: both normal, with means and standard deviations that agree up to
`εe`; or both tables, point by point with energies that agree up to `εe`, and densities that agree up to `εp` and a
common factor, which makes no difference to what is sampled. -/
def LawClose (εe εp : ℝ) : NeutronDist → NeutronDist → Prop
  | .normal mean' std', .normal mean std => |mean' - mean| ≤ εe * mean ∧ |std' - std| ≤ εe * std
  | .tabular l', .tabular l => ∃ c : ℝ, 0 < c ∧ List.Forall₂ (fun p' p : ℝ × ℝ =>
      |p'.1 - p.1| ≤ εe * p.1 ∧ |p'.2 - c * p.2| ≤ εp * (c * p.2)) l' l
  | _, _ => False

/-- A distribution that can be sampled: a positive standard deviation, or a table with increasing positive energies and
positive densities. -/
def LawUsable : NeutronDist → Prop
  | .normal mean std => 0 < mean ∧ 0 < std
  | .tabular l => l ≠ [] ∧ l.Pairwise (fun p q => p.1 < q.1) ∧ ∀ p ∈ l, 0 < p.1 ∧ 0 < p.2

/-- The distribution `d` is that of the neutrons of reaction `r` at the ion temperature `t` (keV).  For T-T the published law
may be taken at a temperature that differs by a rounding error from `t` brought into the range of the data. -/
def LawOf (method : SpectrumMethod) (r : Reaction) (t : ℝ) (d : NeutronDist) : Prop :=
  ∃ t' : ℝ, (r = .TT → TableTemperature (1 / 10 ^ 13) t t') ∧ (r ≠ .TT → t' = t) ∧
    LawClose (1 / 10 ^ 13) (6 / 10 ^ 8) d (publishedLaw method r t') ∧ LawUsable d

/-- The OpenMC source `ring` stands for the cell at `p`, as in `RingIdeal`, and its energy distributions are those of the
neutrons of the plasma there, one for each reaction that gives neutrons, in the order of `st`. -/
structure RingOf (spec : SpectrumMethod) (sv : Reaction → ℝ → ℝ) (tr : TransportView ℝ)
    (psi : ℝ → ℝ → ℝ) (L : ℝ) (st : List Reaction) (cs : List (ℝ × ℝ)) (ε : ℝ) (p : ℝ × ℝ) (ring : Ring ℝ NeutronDist) :
    Prop where
  strength : ∃ σ : ℝ, ring.strength = .fin σ ∧
    RelClose ε σ (neutronRate sv tr psi L st p / (cs.map (neutronRate sv tr psi L st)).sum)
  energy : List.Forall₂
    (fun (r : Reaction) (q : ℝ × NeutronDist) =>
      RelClose ε q.1 (channelNeutrons sv tr psi L r p / neutronRate sv tr psi L st p) ∧
      LawOf spec r (temperatureAt tr psi p) q.2)
    (st.filter fun r => decide (0 < channelNeutrons sv tr psi L r p)) ring.energy
  weights : |(ring.energy.map Prod.fst).sum - 1| ≤ ε
  extent : |ring.rLo - 100 * (p.1 - L / 2)| ≤ ε * (100 * (|p.1| + L)) ∧
    |ring.rHi - 100 * (p.1 + L / 2)| ≤ ε * (100 * (|p.1| + L)) ∧
    |ring.zLo - 100 * (p.2 - L / 2)| ≤ ε * (100 * (|p.2| + L)) ∧
    |ring.zHi - 100 * (p.2 + L / 2)| ≤ ε * (100 * (|p.2| + L))
  density : 0 ≤ ring.rLo → 0 < ring.rHi →
    RelClose ε ring.pLo (ring.rLo / (ring.rLo + ring.rHi)) ∧ RelClose ε ring.pHi (ring.rHi / (ring.rLo + ring.rHi))

end
end TNS.Spec
