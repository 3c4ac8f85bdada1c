import Verif.Model.RoundedFlux
import Verif.Model.Polygon
/-
Area, centroid and volume of closed surfaces (`tools.py` 214-296, `flux.py` 60-94, 826-843) with rounding: every operation is
followed by the rounding `A.rd`; `np.dot` comes from a library, which may add in any order and fuse multiplications.
-/

set_option autoImplicit false

namespace TNS
noncomputable section

/-- The library routine `np.dot` for two vectors of floats, used by `tools.py` 260. -/
structure DotLib where
  dot : List ℝ → List ℝ → ℝ

/-- A loop `for n in range(len(x) - 1)` with `acc += f (x[n], z[n]) (x[n+1], z[n+1])`, see `edgeSum`.
`tools.py` 231-233, 285-289. -/
def edgeSumR (A : Arith) (f : ℝ × ℝ → ℝ × ℝ → ℝ) : ℝ → List (ℝ × ℝ) → ℝ
  | acc, [] => acc
  | acc, [_] => acc
  | acc, p :: q :: l => edgeSumR A f (A.rd (acc + f p q)) (q :: l)

/-- One term of the loop of `check_ccw` (`tools.py` 233). -/
def ccwTermR (A : Arith) (p q : ℝ × ℝ) : ℝ := A.rd (A.rd (q.1 - p.1) * A.rd (q.2 + p.2))

/-- `check_ccw` (`tools.py` 214-234), see `checkCcw`. -/
def checkCcwR (A : Arith) (pts : List (ℝ × ℝ)) : Prop := edgeSumR A (ccwTermR A) 0 pts < 0

/-- `get_area_2d` (`tools.py` 238-260), see `getArea2d`. -/
def getArea2dR (A : Arith) (D : DotLib) (pts : List (ℝ × ℝ)) : ℝ :=
  A.rd (1 / 2 * |A.rd (D.dot (pts.map Prod.fst) ((roll pts).map Prod.snd) -
    D.dot (pts.map Prod.snd) ((roll pts).map Prod.fst))|)

/-- The cross product in the loop of `get_centroid_2d` (`tools.py` 287). -/
def crossR (A : Arith) (p q : ℝ × ℝ) : ℝ := A.rd (A.rd (p.1 * q.2) - A.rd (q.1 * p.2))

open Classical in
/-- `get_centroid_2d` (`tools.py` 264-296), see `getCentroid2d`. -/
def getCentroid2dR (A : Arith) (D : DotLib) (pts : List (ℝ × ℝ)) : ℝ × ℝ :=
  let pts := if checkCcwR A pts then pts else pts.reverse
  let area := getArea2dR A D pts
  let cx := edgeSumR A (fun p q => A.rd (A.rd (p.1 + q.1) * crossR A p q)) 0 pts
  let cz := edgeSumR A (fun p q => A.rd (A.rd (p.2 + q.2) * crossR A p q)) 0 pts
  if area ≠ 0 then (A.rd (cx / A.rd (6 * area)), A.rd (cz / A.rd (6 * area))) else (cx, cz)

/-- `ClosedFluxSurface.volume` (`flux.py` 84-94), see `surfaceVolume`; `pi` stands for `np.pi`. -/
def surfaceVolumeR (A : Arith) (D : DotLib) (pi : ℝ) (pts : List (ℝ × ℝ)) : ℝ :=
  A.rd (A.rd (A.rd (2 * pi) * getArea2dR A D pts) * (getCentroid2dR A D pts).1)

/-- `FluxMap.volume` (`flux.py` 826-843) of a map built from a parameterisation with `n` points per surface
(`flux.py` 658-678), see `FluxInterp.volume`. -/
def paramVolumeR (A : Arith) (G : TrigLib) (D : DotLib) (pi : ℝ) (p : Parameterisation) (l : LCFSInfo ℝ) (n : ℕ) :
    PsiArg → Except Err (PsiResult ℝ)
  | .one psi => do return .one (surfaceVolumeR A D pi (← fluxSurfaceR A G pi p l psi n))
  | .many psis => do return .many ((← psis.mapM (fun psi => fluxSurfaceR A G pi p l psi n)).map (surfaceVolumeR A D pi))

end
end TNS
