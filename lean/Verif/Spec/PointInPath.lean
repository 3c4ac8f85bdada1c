import Verif.Model.Basic
import Mathlib.Analysis.SpecialFunctions.Trigonometric.Basic
import Mathlib.MeasureTheory.Measure.Lebesgue.Basic
/-
Winding number of a polygon about a point, by signed crossings of the ray to the right of the point.
-/

set_option autoImplicit false

namespace TNS.Spec
noncomputable section

/-- Abscissa at height `z` of the line through `a` and `b`. -/
def abscissa (a b : ℝ × ℝ) (z : ℝ) : ℝ := a.1 + (z - a.2) / (b.2 - a.2) * (b.1 - a.1)

/-- The edge `a → b` crosses the ray from `p` to the right, going up. -/
def UpCross (p a b : ℝ × ℝ) : Prop := a.2 < p.2 ∧ p.2 ≤ b.2 ∧ p.1 ≤ abscissa a b p.2

/-- The edge `a → b` crosses the ray from `p` to the right, going down. -/
def DownCross (p a b : ℝ × ℝ) : Prop := b.2 < p.2 ∧ p.2 ≤ a.2 ∧ p.1 < abscissa a b p.2

open Classical in
/-- Signed number of crossings of one edge. -/
def signedCross (p a b : ℝ × ℝ) : ℤ :=
  (if UpCross p a b then 1 else 0) - (if DownCross p a b then 1 else 0)

/-- Winding number about `p` of the polygon with vertex list `pts` (last vertex = first vertex). -/
def winding (p : ℝ × ℝ) : List (ℝ × ℝ) → ℤ
  | [] => 0
  | [_] => 0
  | a :: b :: l => signedCross p a b + winding p (b :: l)

open MeasureTheory in
/-- The polygon goes round its interior once: about almost every point the winding number is 0
or `σ`, with `σ = 1` (anticlockwise) or `σ = -1` (clockwise).  Every simple polygon is like this. -/
def WindsOnce (pts : List (ℝ × ℝ)) (σ : ℤ) : Prop :=
  (σ = 1 ∨ σ = -1) ∧ ∀ᵐ p : ℝ × ℝ, winding p pts = 0 ∨ winding p pts = σ

end
end TNS.Spec
