import Verif.Spec.OpenMC
import Verif.Spec.Rounded
/-
Specification vocabulary for the accuracy of the OpenMC export.
-/

set_option autoImplicit false

namespace TNS.Spec

/-- Neutrons per second emitted by all cells together, added up exactly. -/
noncomputable def totalEmission (s : Source ℝ) : ℝ :=
  ((List.range s.x.length).map fun i => emission s i).sum

/-- The cells emitting neutrons, in order. -/
noncomputable def emitting (s : Source ℝ) : List ℕ :=
  (List.range s.x.length).filter fun i => decide (0 < emission s i)

/-- `a` is the value `b` with a relative error of at most `ε`. -/
def RelClose (ε a b : ℝ) : Prop := |a - b| ≤ ε * b

/-- The exported source of cell `i` is accurate up to `ε`: its strength is the share of the cell in the
neutrons emitted; its energy distribution has one entry for each reaction that emits neutrons there, in the order
of `source_type`, with the spectrum of that reaction at the ion temperature of the cell, weighted by the share of
the reaction in the neutrons of the cell; and the weights add up to 1. -/
structure RingAccurate {E : Type} (spectrum : Reaction → ℝ → Except Err E) (s : Source ℝ) (ε : ℝ) (i : ℕ)
    (ring : Ring ℝ E) : Prop where
  strength : ∃ σ : ℝ, ring.strength = .fin σ ∧ RelClose ε σ (emission s i / totalEmission s)
  energy : List.Forall₂
    (fun (r : Reaction) (p : ℝ × E) => RelClose ε p.1 ((neutronYield r : ℝ) * cellStrength s r i / emission s i) ∧
      ∃ t, s.temperature[i]? = some t ∧ spectrum r t = .ok p.2)
    (s.sourceType.filter fun r => decide (0 < (neutronYield r : ℝ) * cellStrength s r i)) ring.energy
  weights : |(ring.energy.map Prod.fst).sum - 1| ≤ ε

/-- The extent of the source exported for cell `i`, in cm, with an absolute error of at most `ε` times the
distance of the cell's far side from the axes, and radial density values in proportion to the radii. -/
structure ExtentAccurate {E : Type} (s : Source ℝ) (ε : ℝ) (i : ℕ) (ring : Ring ℝ E) : Prop where
  extent : ∃ x z, s.x[i]? = some x ∧ s.z[i]? = some z ∧
    |ring.rLo - 100 * (x - s.cellSideLength / 2)| ≤ ε * (100 * (|x| + s.cellSideLength)) ∧
    |ring.rHi - 100 * (x + s.cellSideLength / 2)| ≤ ε * (100 * (|x| + s.cellSideLength)) ∧
    |ring.zLo - 100 * (z - s.cellSideLength / 2)| ≤ ε * (100 * (|z| + s.cellSideLength)) ∧
    |ring.zHi - 100 * (z + s.cellSideLength / 2)| ≤ ε * (100 * (|z| + s.cellSideLength))
  density : 0 ≤ ring.rLo → 0 < ring.rHi →
    RelClose ε ring.pLo (ring.rLo / (ring.rLo + ring.rHi)) ∧ RelClose ε ring.pHi (ring.rHi / (ring.rLo + ring.rHi))

/-- The arrays of a source have one entry for each cell. -/
structure CellWise (s : Source ℝ) : Prop where
  z : s.z.length = s.x.length
  temperature : s.temperature.length = s.x.length
  volume : s.dVolume.length = s.x.length
  strength : ∀ r ∈ s.sourceType, (strengths s r).length = s.x.length

end TNS.Spec
