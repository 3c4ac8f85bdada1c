import Verif.Model.RoundedFlux
import Verif.Spec.RoundedSpace
import Verif.Spec.RoundedReactivity
/-
Specification for C101: accuracy of `sin` and `cos`, the size of a flux surface, the rounded double of pi.
-/

set_option autoImplicit false

namespace TNS.Spec
noncomputable section

/-- `sin` and `cos` of the library have a relative error of at most `v`. -/
structure AccurateTrig (G : TrigLib) (v : ℝ) : Prop where
  sin : ∀ x, |G.sin x - Real.sin x| ≤ v * |Real.sin x|
  cos : ∀ x, |G.cos x - Real.cos x| ≤ v * |Real.cos x|

/-- Library functions without error. -/
def exactTrig : TrigLib := ⟨Real.sin, Real.cos⟩

/-- Correctly rounded library functions. -/
def roundedTrig : TrigLib := ⟨fun x => round53 (Real.sin x), fun x => round53 (Real.cos x)⟩

/-- A length that bounds all coordinates of the flux surface `psi` of a plasma: its major radius and height, the minor
radius times the elongation, the shift and the squareness. -/
def extent (l : LCFSInfo ℝ) (psi : ℝ) : ℝ :=
  l.r0 + |l.z0| + |psi| * (l.r0 / l.aspect) * l.kappa * (1 + |l.squareness|) + l.shift * (1 + psi ^ 2) + |l.squareness|

/-- Accuracy of the sample of a parameterised plasma: rounding of the grid, for coordinates up to the size of the plasma,
plus the error of the vertices and of the axis.  `v` bounds the errors of the operations and of the library. -/
def plasmaTol (u v : ℝ) (l : LCFSInfo ℝ) (L : ℝ) : ℝ := gridTol u (1.01 * extent l 1) L + 110 * v * extent l 1

/-- What a user has: parameters accepted by both, a computed map, cells that are not too small for the arithmetic, and the
magnetic axis clearly inside the last closed flux surface. -/
structure ParamPlasma (A : Arith) (F : MathLib) (G : TrigLib) (u v pi : ℝ) (p : Parameterisation) (l l' : LCFSInfo ℝ) (rho : List ℝ)
    (n : ℕ) (conv : FluxConvention) (m' : ParamMap) (pts : List (ℝ × ℝ)) (L : ℝ) : Prop where
  arith : StandardModel A u
  trig : AccurateTrig G v
  le : u ≤ v
  small : v ≤ 1 / 10 ^ 5
  piErr : |pi - Real.pi| ≤ u * Real.pi
  made : ∃ r0 z0 aspect kappa delta shift sq, LCFSInfo.make r0 z0 aspect kappa delta shift sq = .ok l ∧
    LCFSInfo.makeR A r0 z0 aspect kappa delta shift sq = .ok l'
  points : 3 ≤ n
  computed : fromParameterisationR A F G pi p l' rho n conv = .ok m'
  exact : fluxSurface p l 1 n = .ok pts
  axis : containsPoint pts ((paramOPoint l).x, (paramOPoint l).z) = true
  axisFar : ¬ NearLine pts (220 * v * extent l 1) ((paramOPoint l).x, (paramOPoint l).z)
  side : 0 < L
  grid : gridTol u (1.01 * extent l 1) L ≤ L / 8
  vertices : 110 * v * extent l 1 ≤ L / 8

/-- Accuracy of a flux label `y'` computed for a flux surface with label `y`, a number between 0 and 1. -/
def LabelClose (v : ℝ) : FluxConvention → ℝ → ℝ → Prop
  | .linear, y', y => |y' - y| ≤ 5 * v
  | .sqrt, y', y => (y = 0 → y' = 0) ∧ |y' - y| * y ≤ 7 * v

end
end TNS.Spec
