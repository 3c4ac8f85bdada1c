import Verif.Spec.RoundedMake
import Verif.Spec.RoundedSpace
import Verif.Spec.Taxicab
import Verif.Model.Polygon
import Mathlib.MeasureTheory.Integral.Bochner.Set
import Mathlib.MeasureTheory.Constructions.BorelSpace.Real
import Mathlib.MeasureTheory.Measure.Lebesgue.Basic
/-
Specification vocabulary for C113: the plasma as a continuum, and how far the computed grid is from it.
-/

set_option autoImplicit false

namespace TNS.Spec
noncomputable section
open MeasureTheory

/-- Reactions per second and cubic metre at the point `p` of the poloidal plane. -/
def rateAt (sv : Reaction → ℝ → ℝ) (tr : TransportView ℝ) (psi : ℝ → ℝ → ℝ) (r : Reaction) (p : ℝ × ℝ) : ℝ :=
  rateDensity (density tr (psi p.1 p.2)) (sv r (valueAt tr.temperature (psi p.1 p.2))) r

/-- Reactions per second of a channel in the whole plasma: volume integral over the inside of the LCFS revolved about the
axis. -/
def insideRate (sv : Reaction → ℝ → ℝ) (tr : TransportView ℝ) (psi : ℝ → ℝ → ℝ) (pts : List (ℝ × ℝ)) (r : Reaction) : ℝ :=
  ∫ p in {p | containsPoint pts p = true}, rateAt sv tr psi r p * (2 * Real.pi * p.1)

/-- Fusion power of the whole plasma. -/
def insidePower (sv : Reaction → ℝ → ℝ) (Q : Reaction → ℝ) (tr : TransportView ℝ) (psi : ℝ → ℝ → ℝ) (pts : List (ℝ × ℝ))
    (st : List Reaction) : ℝ :=
  (st.map fun r => insideRate sv tr psi pts r * Q r).sum

/-- Width of the strip along the LCFS in which computed cells may be missing or too many: a cell side and four times the
accuracy of the coordinates. -/
def stripWidth (u M L : ℝ) : ℝ := L + 4 * gridTol u M L

/-- Area of that strip, from the length of the LCFS along the axes. -/
def stripArea (u M L : ℝ) (pts : List (ℝ × ℝ)) : ℝ := stripWidth u M L ^ 2 + stripWidth u M L * taxicab pts

/-- A function that is at most `C` inside the LCFS and at the computed centres `cs`, changes by at most `ω` between a centre
and the points inside the LCFS within 5/8 of a cell side along both axes, and is continuous inside. -/
structure Gentle (pts cs : List (ℝ × ℝ)) (L : ℝ) (f : ℝ × ℝ → ℝ) (C ω : ℝ) : Prop where
  size : ∀ p, containsPoint pts p = true ∨ p ∈ cs → |f p| ≤ C
  change : ∀ p ∈ cs, ∀ q, containsPoint pts q = true → |p.1 - q.1| ≤ 5 / 8 * L → |p.2 - q.2| ≤ 5 / 8 * L → |f p - f q| ≤ ω
  continuous : ContinuousOn f (interior {p | containsPoint pts p = true})

/-- Bound on the error of a rate: of first order in the cell side `L`. -/
def rateError (u M L : ℝ) (pts : List (ℝ × ℝ)) (C ω : ℝ) : ℝ :=
  2 * Real.pi * (M + L) * (ω * getArea2d pts + C * stripArea u M L pts) +
    2 * Real.pi * gridTol u M L * (C * (getArea2d pts + stripArea u M L pts))

end
end TNS.Spec
