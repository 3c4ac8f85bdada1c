import Verif.Model.RoundedPolygon
import Verif.Spec.RoundedFlux
/-
Specification for C103: accuracy of a dot product, polygons known to some accuracy.
-/

set_option autoImplicit false

namespace TNS.Spec
noncomputable section

/-- `np.dot` of vectors of equal length: the classical bound, `n` roundings of the sum of the absolute products.  It holds for
every order of summation, with and without fused operations. -/
def AccurateDot (D : DotLib) (u : ℝ) : Prop :=
  ∀ a b : List ℝ, a.length = b.length → (a.length : ℝ) * u ≤ 1 / 100 →
    |D.dot a b - (List.zipWith (fun x y => x * y) a b).sum| ≤
      1.02 * ((a.length : ℝ) * u) * (List.zipWith (fun x y => |x * y|) a b).sum

/-- The products are rounded and added up in some order and with some bracketing, which may depend on the vectors. -/
def DotsUp (rd : ℝ → ℝ) (D : DotLib) : Prop :=
  ∀ a b : List ℝ, a.length = b.length → (a = [] → D.dot a b = 0) ∧
    (a ≠ [] → ∃ t : SumTree, t.leaves.Perm (List.zipWith (fun x y => rd (x * y)) a b) ∧ D.dot a b = t.eval rd)

/-- Products rounded and added from left to right. -/
def leftDot (rd : ℝ → ℝ) : DotLib := ⟨fun a b => leftSum rd (List.zipWith (fun x y => rd (x * y)) a b)⟩

/-- Fused multiplications and additions, from left to right. -/
def fusedDot (rd : ℝ → ℝ) : DotLib :=
  ⟨fun a b => (List.zip a b).foldl (fun s p => rd (s + p.1 * p.2)) 0⟩

/-- A polygon `pts'` in memory, and the closed polygon `pts` it stands for: radii up to `R`, heights up to `H`, vertices right to
a fraction `w` of these; `w` also bounds the number of vertices times the unit roundoff. -/
structure PolygonKnown (u w R H : ℝ) (pts' pts : List (ℝ × ℝ)) : Prop where
  closed : pts ≠ [] ∧ pts.head? = pts.getLast?
  radii : ∀ p ∈ pts, |p.1| ≤ R
  heights : ∀ p ∈ pts, |p.2| ≤ H
  vertices : List.Forall₂ (fun p' p : ℝ × ℝ => |p'.1 - p.1| ≤ w * R ∧ |p'.2 - p.2| ≤ w * H) pts' pts
  count : (pts.length : ℝ) * u ≤ w
  small : w ≤ 1 / 10 ^ 5

/-- The unit in which errors of areas are measured: `w` times the number of vertices times the box. -/
def areaTol (w R H : ℝ) (pts : List (ℝ × ℝ)) : ℝ := w * (pts.length : ℝ) * R * H

end
end TNS.Spec
