import Verif.Model.Rounded
import Verif.Model.RoundedReactivity
import Verif.Model.Flux
import Verif.Model.FluxMap
/-
Flux surfaces and flux maps (`flux.py`, `load_eqdsk` of `tools.py`) with rounding: every operation is followed by the
rounding `A.rd`; `sin` and `cos` come from a library.  Comparisons, `abs`, `np.clip` and `min` are exact.
-/

set_option autoImplicit false

namespace TNS
noncomputable section

/-- The library functions `np.sin` and `np.cos` used by `flux.py` 364-367, 379-384. -/
structure TrigLib where
  sin : ℝ → ℝ
  cos : ℝ → ℝ

/-- `LCFSInformation.__post_init__` (`flux.py` 169-188), see `LCFSInfo.make`: the only operation is a quotient. -/
def LCFSInfo.makeR (A : Arith) (r0 z0 aspect kappa delta shift squareness : ℝ) : Except Err (LCFSInfo ℝ) :=
  if r0 ≤ 0 then .error .fluxSurfaceError
  else if aspect ≤ 1 then .error .fluxSurfaceError
  else if kappa < 1 then .error .fluxSurfaceError
  else if ¬ (-1 ≤ delta ∧ delta ≤ 1) then .error .fluxSurfaceError
  else
    let minor := A.rd (r0 / aspect)
    if |shift| ≥ minor then .error .fluxSurfaceError
    else .ok { r0 := r0, z0 := z0, aspect := aspect, kappa := kappa, delta := delta, shift := |shift|
               squareness := squareness, minor := minor }

/-- One entry of `np.linspace(0, 2 * np.pi, n)` (`flux.py` 361, 376): numpy multiplies the index by the rounded step, adds
the start, and overwrites the last entry with the stop (for `n > 1`; for `n = 1` the only entry is the start).
`pi` stands for `np.pi`. -/
def angleR (A : Arith) (pi : ℝ) (n i : ℕ) : ℝ :=
  if i = 0 then 0
  else if i + 1 = n then A.rd (2 * pi)
  else A.rd (A.rd ((i : ℝ) * A.rd (A.rd (A.rd (2 * pi) - 0) / ((n : ℝ) - 1))) + 0)

/-- `np.linspace(0, 2 * np.pi, n)` (`flux.py` 361, 376); its first entry is `0 * step + 0`, exactly 0. -/
def anglesR (A : Arith) (pi : ℝ) (n : ℕ) : List ℝ := (List.range n).map (angleR A pi n)

/-- One point of `FausserFluxSurface._single_flux_surface` (`flux.py` 360-367). -/
def fausserPointR (A : Arith) (G : TrigLib) (l : LCFSInfo ℝ) (psi alpha : ℝ) : ℝ × ℝ :=
  let a := A.rd (A.rd (psi * l.r0) / l.aspect)
  (A.rd (A.rd (l.r0 + A.rd (a * G.cos (A.rd (alpha + A.rd (l.delta * G.sin alpha))))) +
      A.rd (|l.shift| * A.rd (1 - A.rd (psi ^ 2)))),
    A.rd (l.z0 + A.rd (A.rd (a * l.kappa) * G.sin alpha)))

/-- One point of `SauterFluxSurface._single_flux_surface` (`flux.py` 375-384). -/
def sauterPointR (A : Arith) (G : TrigLib) (l : LCFSInfo ℝ) (psi alpha : ℝ) : ℝ × ℝ :=
  let a := A.rd (psi * l.minor)
  (A.rd (A.rd (l.r0 + A.rd (a * G.cos (A.rd (alpha + A.rd (l.delta * G.sin alpha))))) -
      A.rd (l.squareness * G.sin (A.rd (2 * alpha)))),
    A.rd (l.z0 + A.rd (A.rd (l.kappa * a) *
      G.sin (A.rd (alpha + A.rd (l.squareness * G.sin (A.rd (2 * alpha))))))))

/-- A point of the surface. `flux.py` 355-368, 374-385. -/
def Parameterisation.pointR (A : Arith) (G : TrigLib) : Parameterisation → LCFSInfo ℝ → ℝ → ℝ → ℝ × ℝ
  | .fausser => fausserPointR A G
  | .sauter => sauterPointR A G

open Classical in
/-- `is_closed` (`flux.py` 42-48), see `isClosed`: `np.isclose` compares the rounded difference with the tolerance. -/
def isClosedR (A : Arith) (pts : List (ℝ × ℝ)) (absTol : ℝ) : Except Err Bool :=
  match pts.head?, pts.getLast? with
  | some a, some b => .ok (decide (|A.rd (a.1 - b.1)| ≤ absTol) && decide (|A.rd (a.2 - b.2)| ≤ absTol))
  | _, _ => .error .indexError

/-- `ClosedFluxSurface.__init__` (`flux.py` 54-58); the tolerance is the float nearest to `1e-12`. -/
def makeClosedR (A : Arith) (pts : List (ℝ × ℝ)) : Except Err (List (ℝ × ℝ)) := do
  if ← isClosedR A pts (A.rd closedTol) then .ok pts else .error .fluxSurfaceError

/-- `flux_surface(psi_norm, n_points)` for a scalar (`flux.py` 319-341, 355-368, 374-385). -/
def fluxSurfaceR (A : Arith) (G : TrigLib) (pi : ℝ) (p : Parameterisation) (l : LCFSInfo ℝ) (psi : ℝ) (n : ℕ) :
    Except Err (List (ℝ × ℝ)) :=
  makeClosedR A ((anglesR A pi n).map (p.pointR A G l psi))

/-- The O-point of `FluxMap.from_parameterisation` (`flux.py` 771-776). -/
def paramOPointR (A : Arith) (l : LCFSInfo ℝ) : FluxPoint ℝ := ⟨A.rd (l.r0 + l.shift), l.z0, 0⟩

/-- `normalise_psi` (`flux.py` 398-427). -/
def normalisePsiR (A : Arith) (F : MathLib) (psi axis boundary : ℝ) (conv : FluxConvention) : ℝ :=
  let p := max (A.rd (A.rd (axis - psi) / A.rd (axis - boundary))) 0
  match conv with
  | .linear => p
  | .sqrt => F.sqrt p

/-- `FluxMap.from_parameterisation` (`flux.py` 744-784) with `ParameterisationInterpolator.__init__`
(`flux.py` 600-638), see `fromParameterisation`. -/
def fromParameterisationR (A : Arith) (F : MathLib) (G : TrigLib) (pi : ℝ) (p : Parameterisation) (l : LCFSInfo ℝ)
    (rho : List ℝ) (n : ℕ) (conv : FluxConvention) : Except Err ParamMap := do
  let lcfs ← fluxSurfaceR A G pi p l 1 n
  let o := paramOPointR A l
  let rho := rho.filter (fun r => decide (r > 0))
  let surfs ← rho.mapM (fun r => fluxSurfaceR A G pi p l r n)
  if surfs = [] then .error .valueError else
  let psi := rho.flatMap (fun r => List.replicate n (A.rd (1 - r)))
  .ok { lcfs := lcfs, oPoint := o, pts := (o.x, o.z) :: surfs.flatten
        labels := (1 :: psi).map (fun q => normalisePsiR A F q 1 0 conv) }

open Classical in
/-- `load_eqdsk` (`tools.py` 95-102), see `loadEqdsk`. -/
def loadEqdskR (A : Arith) (eq : Eqdsk ℝ) : Eqdsk ℝ :=
  if eq.psimag < eq.psibdry then
    { psi := eq.psi.map (fun p => A.rd (eq.psimag - p))
      psibdry := A.rd (eq.psimag - eq.psibdry)
      psimag := 0 }
  else eq

/-- `FluxMap.from_eqdsk` (`flux.py` 702-742): the normalised flux map, see `fromEqdskPsi`. -/
def fromEqdskPsiR (A : Arith) (F : MathLib) (eq : Eqdsk ℝ) (lcfsPsi : Eqdsk ℝ → List ℝ) (conv : FluxConvention) :
    List ℝ :=
  let eq := loadEqdskR A eq
  let boundary := npMin (lcfsPsi eq)
  eq.psi.map (fun p => normalisePsiR A F p eq.psimag boundary conv)

end
end TNS
