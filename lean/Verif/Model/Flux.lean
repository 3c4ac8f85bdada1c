import Verif.Model.Profile
import Verif.Model.Space
import Mathlib.Analysis.SpecialFunctions.Trigonometric.Basic
import Mathlib.Analysis.SpecialFunctions.Sqrt
/-
Model of `tokamak_neutron_source/flux.py` and of `load_eqdsk` (`tools.py` 72-102).
Numbers are exact.  A coordinate array pair `x`, `z` is a list of points (simplification: the two
arrays have equal length).  External and not modelled: the contour tracer of contourpy (its result is
a parameter), scipy's 2-D interpolators, matplotlib.
-/

set_option autoImplicit false

namespace TNS

section ordered
variable {K : Type} [Field K] [LinearOrder K]

/-- `FluxPoint` (`flux.py` 33-39). -/
structure FluxPoint (K : Type) where
  x : K
  z : K
  psi : K

/-- `ClosedFluxSurface` or `FluxRing` objects (`flux.py` 51-58, 97-102) by their coordinates. -/
inductive Surface (K : Type)
  | closed (pts : List (K × K))
  | ring (x z : K)

/-- `is_closed` (`flux.py` 42-48); `x[0]` of an empty array is an `IndexError`. -/
def isClosed (pts : List (K × K)) (absTol : K) : Except Err Bool :=
  match pts.head?, pts.getLast? with
  | some a, some b => .ok (decide (|a.1 - b.1| ≤ absTol) && decide (|a.2 - b.2| ≤ absTol))
  | _, _ => .error .indexError

/-- The default tolerance of `is_closed` (`flux.py` 42), as an exact decimal. -/
def closedTol : K := 1 / 10 ^ 12

/-- `ClosedFluxSurface.__init__` (`flux.py` 54-58). -/
def makeClosed (pts : List (K × K)) : Except Err (List (K × K)) := do
  if ← isClosed pts closedTol then .ok pts else .error .fluxSurfaceError

/-- `LCFSInformation` (`flux.py` 141-167). -/
structure LCFSInfo (K : Type) where
  r0 : K
  z0 : K
  aspect : K
  kappa : K
  delta : K
  shift : K
  squareness : K
  minor : K

/-- `LCFSInformation.__post_init__` (`flux.py` 169-188). -/
def LCFSInfo.make (r0 z0 aspect kappa delta shift squareness : K) : Except Err (LCFSInfo K) :=
  if r0 ≤ 0 then .error .fluxSurfaceError
  else if aspect ≤ 1 then .error .fluxSurfaceError
  else if kappa < 1 then .error .fluxSurfaceError
  else if ¬ (-1 ≤ delta ∧ delta ≤ 1) then .error .fluxSurfaceError
  else
    let minor := r0 / aspect
    if |shift| ≥ minor then .error .fluxSurfaceError
    else .ok { r0 := r0, z0 := z0, aspect := aspect, kappa := kappa, delta := delta, shift := |shift|
               squareness := squareness, minor := minor }

/-- `np.mean`. Used in `flux.py` 279. -/
def npMean (l : List K) : K := l.sum / (l.length : K)

/-- `_f_min` of `find_flux_surf` (`flux.py` 269-280). -/
def contourErr (o : FluxPoint K) (g : List (K × K)) : K :=
  (npMean (g.map Prod.fst) - o.x) ^ 2 + (npMean (g.map Prod.snd) - o.z) ^ 2

/-- `np.argmin` on a non-empty list: the index of the first minimum. Used in `flux.py` 291. -/
def argmin : List K → ℕ
  | [] => 0
  | a :: l => if l.all (fun b => decide (a ≤ b)) then 0 else argmin l + 1

/-- `find_flux_surf` (`flux.py` 226-291) on the contours found by `get_contours`. -/
def findFluxSurf (contours : List (List (K × K))) (o : FluxPoint K) :
    Except Err (List (K × K)) :=
  if contours = [] then .error .fluxSurfaceError
  else match contours[argmin (contours.map (contourErr o))]? with
    | some g => .ok g
    | none => .error .indexError

/-- The flux convention (`flux.py` 388-395). -/
inductive FluxConvention
  | linear
  | sqrt
  deriving DecidableEq

/-- `normalise_psi` with the LINEAR convention (`flux.py` 423-424): clipped below at 0. -/
def normaliseLinear (psi axis boundary : K) : K := max ((axis - psi) / (axis - boundary)) 0

/-- The fields of `EQDSKInterface` used by `load_eqdsk` and `from_eqdsk`; `psi` is the flattened
flux map. `tools.py` 95-102, `flux.py` 703-743. -/
structure Eqdsk (K : Type) where
  psi : List K
  psimag : K
  psibdry : K

/-- `load_eqdsk` (`tools.py` 95-102) on a loaded object (which it modifies in place). -/
def loadEqdsk (eq : Eqdsk K) : Eqdsk K :=
  if eq.psimag < eq.psibdry then
    { psi := eq.psi.map (fun p => eq.psimag - p)
      psibdry := eq.psimag - eq.psibdry
      psimag := 0 }
  else eq

end ordered

noncomputable section real

/-- `normalise_psi` (`flux.py` 398-427). -/
def normalisePsi (psi axis boundary : ℝ) (conv : FluxConvention) : ℝ :=
  let p := normaliseLinear psi axis boundary
  match conv with
  | .linear => p
  | .sqrt => Real.sqrt p

/-- `np.linspace(0, 2 * np.pi, n)` (`flux.py` 361, 376). -/
def angles (n : ℕ) : List ℝ :=
  if n = 1 then [0]
  else (List.range n).map (fun i : ℕ => 2 * Real.pi * ((i : ℝ) / ((n : ℝ) - 1)))

/-- One point of `FausserFluxSurface._single_flux_surface` (`flux.py` 360-367). -/
def fausserPoint (l : LCFSInfo ℝ) (psi alpha : ℝ) : ℝ × ℝ :=
  let a := psi * l.r0 / l.aspect
  (l.r0 + a * Real.cos (alpha + l.delta * Real.sin alpha) + |l.shift| * (1 - psi ^ 2),
    l.z0 + a * l.kappa * Real.sin alpha)

/-- One point of `SauterFluxSurface._single_flux_surface` (`flux.py` 375-384). -/
def sauterPoint (l : LCFSInfo ℝ) (psi alpha : ℝ) : ℝ × ℝ :=
  let a := psi * l.minor
  (l.r0 + a * Real.cos (alpha + l.delta * Real.sin alpha) - l.squareness * Real.sin (2 * alpha),
    l.z0 + l.kappa * a * Real.sin (alpha + l.squareness * Real.sin (2 * alpha)))

/-- The parameterisations (`flux.py` 352-385). -/
inductive Parameterisation
  | fausser
  | sauter

/-- A point of the surface. `flux.py` 355-368, 374-385. -/
def Parameterisation.point : Parameterisation → LCFSInfo ℝ → ℝ → ℝ → ℝ × ℝ
  | .fausser => fausserPoint
  | .sauter => sauterPoint

/-- `flux_surface(psi_norm, n_points)` for a scalar (`flux.py` 319-341, 355-368, 374-385). -/
def fluxSurface (p : Parameterisation) (l : LCFSInfo ℝ) (psi : ℝ) (n : ℕ) :
    Except Err (List (ℝ × ℝ)) :=
  makeClosed ((angles n).map (p.point l psi))

/-- The O-point of `FluxMap.from_parameterisation` (`flux.py` 771-776). -/
def paramOPoint (l : LCFSInfo ℝ) : FluxPoint ℝ := ⟨l.r0 + l.shift, l.z0, 0⟩

/-- The data of a flux map built by `from_parameterisation` (`flux.py` 744-784, 600-638): LCFS,
O-point, and the scattered points and labels given to the 2-D interpolator. -/
structure ParamMap where
  lcfs : List (ℝ × ℝ)
  oPoint : FluxPoint ℝ
  pts : List (ℝ × ℝ)
  labels : List ℝ

/-- `FluxMap.from_parameterisation` (`flux.py` 744-784) with
`ParameterisationInterpolator.__init__` (`flux.py` 600-638).  `np.concatenate` of an empty list of
arrays raises `ValueError`. -/
def fromParameterisation (p : Parameterisation) (l : LCFSInfo ℝ) (rho : List ℝ) (n : ℕ)
    (conv : FluxConvention) : Except Err ParamMap := do
  let lcfs ← fluxSurface p l 1 n
  let o := paramOPoint l
  let rho := rho.filter (fun r => decide (r > 0))
  let surfs ← rho.mapM (fun r => fluxSurface p l r n)
  if surfs = [] then .error .valueError else
  let psi := rho.flatMap (fun r => List.replicate n (1 - r))
  .ok { lcfs := lcfs, oPoint := o, pts := (o.x, o.z) :: surfs.flatten
        labels := (1 :: psi).map (fun q => normalisePsi q 1 0 conv) }

/-- `np.hypot`. Used in `flux.py` 299. -/
def hypot (a b : ℝ) : ℝ := Real.sqrt (a ^ 2 + b ^ 2)

/-- Distance of two points. `flux.py` 299. -/
def segLength (p q : ℝ × ℝ) : ℝ := hypot (q.1 - p.1) (q.2 - p.2)

/-- `s = np.concatenate(([0], np.cumsum(seg_lengths)))` (`flux.py` 299-300), starting at `s0`. -/
def arcLengths : ℝ → List (ℝ × ℝ) → List ℝ
  | _, [] => []
  | s, [_] => [s]
  | s, p :: q :: l => s :: arcLengths (s + segLength p q) (q :: l)

/-- `interpolate_flux_surface` (`flux.py` 294-310).  `np.linspace(0, L, n, endpoint=False)` is
`i * L / n`; `x_new[0]` for `n = 0`, and `s[-1]` never fails (`s` has at least the initial 0), but an
empty coordinate array makes `interp1d` fail with `ValueError` because `s` then has one element. -/
def interpolateFluxSurface (pts : List (ℝ × ℝ)) (n : ℕ) : Except Err (List (ℝ × ℝ)) := do
  if pts = [] then .error .valueError else
  let s := arcLengths 0 pts
  let L := s.getLastD 0
  let su := (List.range n).map (fun i : ℕ => (i : ℝ) * L / (n : ℝ))
  let xs ← su.mapM (interp1d (List.zip s (pts.map Prod.fst)))
  let zs ← su.mapM (interp1d (List.zip s (pts.map Prod.snd)))
  match xs, zs with
  | x :: xs, z :: zs => .ok (List.zip ((x :: xs) ++ [x]) ((z :: zs) ++ [z]))
  | _, _ => .error .indexError

/-- `EQDSKFluxInterpolator.get_flux_surface` (`flux.py` 544-569).  `contours v` is the list of
contours at level `v` found by contourpy. -/
def eqdskFluxSurface (contours : ℝ → List (List (ℝ × ℝ))) (o : FluxPoint ℝ) (psi : ℝ)
    (nPoints : Option ℕ) : Except Err (Surface ℝ) :=
  let psi := clip 0 1 psi
  if psi = 0 then .ok (.ring o.x o.z)
  else do
    let g ← findFluxSurf (contours psi) o
    match nPoints with
    | none => return .closed (← makeClosed g)
    | some n => return .closed (← makeClosed (← interpolateFluxSurface g n))

/-- `FluxMap.from_eqdsk` (`flux.py` 702-742): the normalised flux map.  `lcfsPsi` is the list of
values at the LCFS points of the spline through the loaded flux map. -/
def fromEqdskPsi (eq : Eqdsk ℝ) (lcfsPsi : Eqdsk ℝ → List ℝ) (conv : FluxConvention) : List ℝ :=
  let eq := loadEqdsk eq
  let boundary := npMin (lcfsPsi eq)
  eq.psi.map (fun p => normalisePsi p eq.psimag boundary conv)

end real
end TNS
