import Verif.Model.Flux
import Verif.Model.Polygon
import Verif.Model.PointInPath
import Verif.Model.Source
/-
Model of the `FluxMap` class (`flux.py` 689-843) for both kinds of flux interpolator.
External and parameters here: scipy's `RectBivariateSpline` on the grid of the file, a function of the
data on the grid and of the point; the contour tracer of contourpy, a function of the data on the grid
and of the level.
-/

set_option autoImplicit false

namespace TNS
noncomputable section

/-- The attributes of an `EQDSKInterface` read by `from_eqdsk` (`flux.py` 723-741).  The grid `x`, `z`
of the file is part of the external spline and contour functions. -/
structure EqdskFile where
  data : Eqdsk ℝ
  bdry : List (ℝ × ℝ)
  xmag : ℝ
  zmag : ℝ

/-- A flux map built by `from_eqdsk`: LCFS, O-point, and the normalised flux on the grid
(`flux.py` 724-742). -/
structure EqdskMap where
  lcfs : List (ℝ × ℝ)
  oPoint : FluxPoint ℝ
  psiNorm : List ℝ

/-- The object after `load_eqdsk` (`tools.py` 95-102), which assigns to its attributes. -/
def EqdskFile.loaded (f : EqdskFile) : EqdskFile := { f with data := loadEqdsk f.data }

/-- `FluxMap.from_eqdsk` (`flux.py` 702-742) on an `EQDSKInterface` object: the object afterwards, and
the flux map. -/
def fromEqdsk (spline : List ℝ → ℝ × ℝ → ℝ) (f : EqdskFile) (conv : FluxConvention) :
    EqdskFile × Except Err EqdskMap :=
  (f.loaded, do
    let lcfs ← makeClosed f.bdry
    .ok { lcfs := lcfs
          oPoint := ⟨f.xmag, f.zmag, (loadEqdsk f.data).psimag⟩
          psiNorm := fromEqdskPsi f.data (fun e => lcfs.map (spline e.psi)) conv })

/-- `FluxMap.psi_norm` of such a map (`flux.py` 786-802, 512-524, 526-542). -/
def EqdskMap.value (spline : List ℝ → ℝ × ℝ → ℝ) (m : EqdskMap) (x z : ℝ) : ℝ :=
  spline m.psiNorm (x, z)

/-- What the source constructor uses of such a map (`main.py` 107-111, `space.py` 50, 66). -/
def EqdskMap.view (spline : List ℝ → ℝ × ℝ → ℝ) (m : EqdskMap) : FluxMapView ℝ :=
  { lcfsX := m.lcfs.map Prod.fst
    lcfsZ := m.lcfs.map Prod.snd
    inside := containsPoint m.lcfs
    oX := m.oPoint.x
    oZ := m.oPoint.z
    psiNorm := m.value spline }

/-- The `interpolator` of a `FluxMap`, by what `get_flux_surface` reads of it: `EQDSKFluxInterpolator`
(`flux.py` 509-569) or `ParameterisationInterpolator` (`flux.py` 597-678). -/
inductive FluxInterp
  | eqdsk (contours : ℝ → List (List (ℝ × ℝ))) (o : FluxPoint ℝ)
  | param (p : Parameterisation) (l : LCFSInfo ℝ) (nPoints : ℕ)

/-- `interpolator.get_flux_surface(psi_norm, n_points)` (`flux.py` 544-569, 658-678). -/
def FluxInterp.surface : FluxInterp → ℝ → Option ℕ → Except Err (Surface ℝ)
  | .eqdsk contours o, psi, n => eqdskFluxSurface contours o psi n
  | .param p l n0, psi, n => do return .closed (← fluxSurface p l psi (n.getD n0))

/-- A `psi_norm` argument: a number or an iterable of numbers. `flux.py` 804-843. -/
inductive PsiArg
  | one (psi : ℝ)
  | many (psis : List ℝ)

/-- A result for a `psi_norm` argument. `flux.py` 804-843. -/
inductive PsiResult (α : Type)
  | one (r : α)
  | many (rs : List α)

/-- `FluxMap.get_flux_surface` (`flux.py` 804-824). -/
def FluxInterp.getFluxSurface (i : FluxInterp) (psi : PsiArg) (n : Option ℕ) :
    Except Err (PsiResult (Surface ℝ)) :=
  match psi with
  | .many l => do return .many (← l.mapM (fun p => i.surface p n))
  | .one p => do return .one (← i.surface p n)

/-- `area` of a surface object (`flux.py` 72-82, 117-126). -/
def Surface.area : Surface ℝ → ℝ
  | .closed pts => getArea2d pts
  | .ring _ _ => 0

/-- `volume` of a surface object (`flux.py` 84-94, 128-138). -/
def Surface.volume : Surface ℝ → ℝ
  | .closed pts => surfaceVolume pts
  | .ring _ _ => 0

/-- `FluxMap.volume` (`flux.py` 826-843). -/
def FluxInterp.volume (i : FluxInterp) (psi : PsiArg) : Except Err (PsiResult ℝ) := do
  match ← i.getFluxSurface psi none with
  | .many fs => return .many (fs.map Surface.volume)
  | .one s => return .one s.volume

end
end TNS
