import Verif.Model.Basic
import Mathlib.Analysis.SpecialFunctions.Trigonometric.Basic
/-
Model of the polygon functions of `tokamak_neutron_source/tools.py` (214-296) and of the geometric
properties of `ClosedFluxSurface` (`flux.py` 60-94).  A coordinate array pair is a list of points;
numbers are exact reals.
-/

set_option autoImplicit false

namespace TNS
noncomputable section

/-- A loop `for n in range(len(x) - 1)` accumulating `f (x[n], z[n]) (x[n+1], z[n+1])`.
`tools.py` 232-233, 286-289. -/
def edgeSum (f : ℝ × ℝ → ℝ × ℝ → ℝ) : List (ℝ × ℝ) → ℝ
  | [] => 0
  | [_] => 0
  | p :: q :: l => f p q + edgeSum f (q :: l)

/-- `check_ccw` (`tools.py` 214-234). -/
def checkCcw (pts : List (ℝ × ℝ)) : Prop :=
  edgeSum (fun p q => (q.1 - p.1) * (q.2 + p.2)) pts < 0

/-- `np.append(x[-1], x[:-1])` (`tools.py` 258-259). -/
def roll (pts : List (ℝ × ℝ)) : List (ℝ × ℝ) :=
  match pts.getLast? with
  | some b => b :: pts.dropLast
  | none => []

/-- `get_area_2d` (`tools.py` 238-260); the two dot products. -/
def getArea2d (pts : List (ℝ × ℝ)) : ℝ :=
  1 / 2 * |(List.zipWith (fun p q => p.1 * q.2) pts (roll pts)).sum -
    (List.zipWith (fun p q => p.2 * q.1) pts (roll pts)).sum|

open Classical in
/-- `get_centroid_2d` (`tools.py` 264-296). -/
def getCentroid2d (pts : List (ℝ × ℝ)) : ℝ × ℝ :=
  let pts := if checkCcw pts then pts else pts.reverse
  let area := getArea2d pts
  let cx := edgeSum (fun p q => (p.1 + q.1) * (p.1 * q.2 - q.1 * p.2)) pts
  let cz := edgeSum (fun p q => (p.2 + q.2) * (p.1 * q.2 - q.1 * p.2)) pts
  if area ≠ 0 then (cx / (6 * area), cz / (6 * area)) else (cx, cz)

/-- `ClosedFluxSurface.volume` (`flux.py` 84-94). -/
def surfaceVolume (pts : List (ℝ × ℝ)) : ℝ := 2 * Real.pi * getArea2d pts * (getCentroid2d pts).1

end
end TNS
