import Verif.Model.Basic
import Mathlib.Algebra.Order.Floor.Ring
import Mathlib.Algebra.Order.Field.Basic
/-
Model of `tokamak_neutron_source/space.py`.  Numbers are exact elements of an arbitrary linearly
ordered field with floor (floats are not modelled).
-/

set_option autoImplicit false

namespace TNS

variable {K : Type} [Field K] [LinearOrder K] [IsStrictOrderedRing K] [FloorRing K]

/-- `np.min(l)` for a non-empty array.  Simplification: numpy raises `ValueError` on an empty array;
a `ClosedFluxSurface` is never empty because its constructor reads `x[0]` (`flux.py` 43). -/
def npMin {K : Type} [LinearOrder K] [Zero K] : List K → K
  | [] => 0
  | a :: l => l.foldl min a

/-- `np.max(l)` for a non-empty array, see `npMin`. `space.py` 52-53. -/
def npMax {K : Type} [LinearOrder K] [Zero K] : List K → K
  | [] => 0
  | a :: l => l.foldl max a

/-- Python/numpy `a % b` on floats for `b ≠ 0` (sign of the divisor). `space.py` 56-57. -/
def pyMod (a b : K) : K := a - b * (⌊a / b⌋ : K)

/-- `np.arange(start, stop, step)` for `step > 0`: `ceil((stop - start) / step)` values. `space.py` 60-61. -/
def arange (start stop step : K) : List K :=
  (List.range ⌈(stop - start) / step⌉.toNat).map (fun i : ℕ => start + (i : K) * step)

/-- One axis of the grid: lines 52-53 (bounding interval with offset), 56-57 (shift so that the
O-point lies on a cell centre) and 60-61 (`np.arange(..) + 0.5 * cell_side_length`) of `space.py`,
for the coordinates `c` of the LCFS along the axis and the coordinate `o` of the O-point. -/
def gridAxis (c : List K) (o L : K) : List K :=
  let off := 2 * L
  let cMin := npMin c - off
  let cMax := npMax c + off
  let d := pyMod (o - cMin) L - 1 / 2 * L
  (arange (cMin + d) cMax L).map (· + 1 / 2 * L)

/-- `np.meshgrid(xs, zs, indexing="ij")` followed by `np.c_[x.ravel(), z.ravel()]`
(`space.py` 62-63). -/
def meshPoints (xs zs : List K) : List (K × K) := xs.flatMap (fun x => zs.map (fun z => (x, z)))

/-- The points kept by `sample_space_2d` (`space.py` 49-67).  `inside` stands for matplotlib's
`Path(..).contains_points` (`space.py` 50, 66), an external function. -/
def samplePoints (lcfsX lcfsZ : List K) (inside : K × K → Bool) (oX oZ L : K) : List (K × K) :=
  (meshPoints (gridAxis lcfsX oX L) (gridAxis lcfsZ oZ L)).filter inside

/-- Volume of one cell, `2 * np.pi * points[:, 0] * cell_side_length**2` (`space.py` 70).
`pi` stands for `np.pi`. -/
def cellVolume (pi x L : K) : K := 2 * pi * x * L ^ 2

/-- Result of `sample_space_2d` (`space.py` 15-72): `x`, `z`, `d_volume`. -/
structure Sampled (K : Type) where
  x : List K
  z : List K
  dVolume : List K

/-- `sample_space_2d` (`space.py` 15-72). -/
def sampleSpace2d (pi : K) (lcfsX lcfsZ : List K) (inside : K × K → Bool) (oX oZ L : K) : Sampled K :=
  let points := samplePoints lcfsX lcfsZ inside oX oZ L
  { x := points.map Prod.fst
    z := points.map Prod.snd
    dVolume := points.map (fun p => cellVolume pi p.1 L) }

end TNS
