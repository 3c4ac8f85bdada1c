import Verif.Model.Rounded
import Verif.Model.Space
import Verif.Model.PointInPath
import Mathlib.Data.Real.Archimedean
/-
`sample_space_2d` (`space.py` 15-72) with rounding: every single floating point operation, also those
inside `np.arange` and `Path.contains_points`, is followed by the rounding `A.rd`.
-/

set_option autoImplicit false

namespace TNS
noncomputable section

/-- C `fmod`: remainder with the sign of the dividend; it is computed without error.
Part of `%` in `space.py` 56-57. -/
def fmod (a b : ℝ) : ℝ := a - b * (if 0 ≤ a / b then (⌊a / b⌋ : ℝ) else (⌈a / b⌉ : ℝ))

open Classical in
/-- `a % b` of numpy floats (`space.py` 56-57; `npy_remainder`): `fmod`, corrected by a rounded addition
when its sign differs from that of the divisor. -/
def pyModR (A : Arith) (a b : ℝ) : ℝ :=
  let m := fmod a b
  if m ≠ 0 ∧ ¬ (b < 0 ↔ m < 0) then A.rd (m + b) else m

/-- `np.arange(start, stop, step)` of floats (`space.py` 60-61).  numpy computes the length from the
rounded quotient, the first two values, and fills the rest with `start + i * delta`, where `delta` is the
rounded difference of these two values (`PyArray_ArangeObj`, `DOUBLE_fill`). -/
def arangeR (A : Arith) (start stop step : ℝ) : List ℝ :=
  let n := ⌈A.rd (A.rd (stop - start) / step)⌉.toNat
  let next := A.rd (start + step)
  let delta := A.rd (next - start)
  (List.range n).map fun i : ℕ =>
    if i = 0 then start else if i = 1 then next else A.rd (start + A.rd ((i : ℝ) * delta))

/-- One axis of the grid (`space.py` 51-53, 56-57, 60-61). -/
def gridAxisR (A : Arith) (c : List ℝ) (o L : ℝ) : List ℝ :=
  let off := A.rd (2 * L)
  let cMin := A.rd (npMin c - off)
  let cMax := A.rd (npMax c + off)
  let d := A.rd (pyModR A (A.rd (o - cMin)) L - A.rd (1 / 2 * L))
  (arangeR A (A.rd (cMin + d)) cMax L).map fun v => A.rd (v + A.rd (1 / 2 * L))

open Classical in
/-- One edge of matplotlib's crossing test, see `crosses`: comparisons are exact, differences and
products are rounded. `space.py` 66. -/
def crossesR (A : Arith) (p a b : ℝ × ℝ) : Bool :=
  (decide (p.2 ≤ a.2) != decide (p.2 ≤ b.2)) &&
    (decide (A.rd (A.rd (b.1 - p.1) * A.rd (a.2 - b.2)) ≤ A.rd (A.rd (b.2 - p.2) * A.rd (a.1 - b.1))) ==
      decide (p.2 ≤ b.2))

/-- `Path(vertices).contains_points([p])[0]` (`space.py` 50, 66), see `containsPoint`. -/
def containsPointR (A : Arith) (pts : List (ℝ × ℝ)) (p : ℝ × ℝ) : Bool :=
  decide (3 ≤ pts.length) &&
    (pathEdges pts).foldl (fun f e => f ^^ crossesR A p e.1 e.2) false

/-- The points kept by `sample_space_2d` (`space.py` 49-67) for the LCFS polygon `pts`. -/
def samplePointsR (A : Arith) (pts : List (ℝ × ℝ)) (oX oZ L : ℝ) : List (ℝ × ℝ) :=
  ((gridAxisR A (pts.map Prod.fst) oX L).flatMap fun x =>
    (gridAxisR A (pts.map Prod.snd) oZ L).map fun z => (x, z)).filter (containsPointR A pts)

/-- `2 * np.pi * points[:, 0] * cell_side_length**2` (`space.py` 70), from left to right; `pi` stands
for `np.pi`. -/
def cellVolumeR (A : Arith) (pi x L : ℝ) : ℝ := A.rd (A.rd (A.rd (2 * pi) * x) * A.rd (L ^ 2))

/-- `sample_space_2d` (`space.py` 15-72). -/
def sampleSpace2dR (A : Arith) (pi : ℝ) (pts : List (ℝ × ℝ)) (oX oZ L : ℝ) : Sampled ℝ :=
  let points := samplePointsR A pts oX oZ L
  { x := points.map Prod.fst
    z := points.map Prod.snd
    dVolume := points.map fun p => cellVolumeR A pi p.1 L }

end
end TNS
