import Verif.Model.Basic
import Verif.Model.Constants
import Mathlib.Analysis.SpecialFunctions.Pow.Real
import Mathlib.Data.List.Sort
/-
Model of `tokamak_neutron_source/profile.py`, `tokamak_neutron_source/transport.py` and `load_jsp`
(`tokamak_neutron_source/tools.py` 128-198).
Numbers are exact (reals, or an arbitrary ordered field where no power occurs).
-/

set_option autoImplicit false

namespace TNS

section interp
variable {K : Type} [Field K] [LinearOrder K]

/-- `np.clip(x, lo, hi)`. Used in `profile.py` 47, 91, 135, 153, 157. -/
def clip (lo hi x : K) : K := min (max x lo) hi

/-- `np.interp(x, xp, fp)` for a table sorted by abscissa: constant outside, linear between.
`scipy.interpolate.interp1d` inside the table, `profile.py` 43, `reactivity_data.py` 55. -/
def npInterp : List (K × K) → K → K
  | [], _ => 0
  | [p], _ => p.2
  | p :: q :: l, x =>
    if x < q.1 then
      (if x < p.1 then p.2 else (q.2 - p.2) / (q.1 - p.1) * (x - p.1) + p.2)
    else npInterp (q :: l) x

/-- `interp1d(rho, values, kind="linear")(x)` (`profile.py` 43, 48): the table is sorted by abscissa
(stable), arguments outside the table raise `ValueError` (scipy's default `bounds_error`), inside
scipy calls `np.interp`.  An empty table is a `ValueError`. -/
def interp1d (table : List (K × K)) (x : K) : Except Err K :=
  let t := table.mergeSort (fun p q => decide (p.1 ≤ q.1))
  match t.head?, t.getLast? with
  | some a, some b => if x < a.1 ∨ b.1 < x then .error .valueError else .ok (npInterp t x)
  | _, _ => .error .valueError

/-- `DataProfile.value` (`profile.py` 45-48) at a scalar. -/
def dataValue (table : List (K × K)) (scale rho : K) : Except Err K := do
  let v ← interp1d table (clip 0 1 rho)
  .ok (scale * v)

/-- `FractionalFuelComposition` (`transport.py` 22-41). -/
structure Composition (K : Type) where
  D : K
  T : K
  He3 : K

/-- `FractionalFuelComposition.__post_init__` (`transport.py` 43-51).  The fractions are Python
floats: a zero sum raises `ZeroDivisionError`. -/
def Composition.make (d t h : K) : Except Err (Composition K) :=
  if d + t + h ≠ 1 then
    if d + t + h = 0 then .error .zeroDivisionError
    else .ok ⟨d / (d + t + h), t / (d + t + h), h / (d + t + h)⟩
  else .ok ⟨d, t, h⟩

/-- The profile data read from a JETTO JSP file (`tools.py` 167-177): per frame the rows of the
signals `XPSQ`, `TI`, `NID`, `NIT`. -/
structure JspFrame (K : Type) where
  rho : List K
  ti : List K
  nd : List K
  nt : List K

/-- `SimpleJETTOOutput` (`tools.py` 105-125) without the neutron rate. -/
structure JettoOutput (K : Type) where
  rho : List K
  ionTemperature : List K
  dDensity : List K
  tDensity : List K
  he3Density : List K

/-- `np.insert(a, 0, a[0])` (`tools.py` 181-184); `a[0]` of an empty array is an `IndexError`. -/
def insertFirst (l : List K) : Except Err (List K) :=
  match l with
  | [] => .error .indexError
  | a :: l => .ok (a :: a :: l)

/-- `load_jsp` (`tools.py` 128-198) on the decoded file content, one `JspFrame` per time stamp. -/
def loadJsp (frames : List (JspFrame K)) (frameNumber : ℤ) : Except Err (JettoOutput K) :=
  if frameNumber < -1 ∨ frameNumber > (frames.length : ℤ) - 1 then .error .valueError
  else
    let t : ℤ := if frameNumber = -1 then (frames.length : ℤ) - 1 else frameNumber
    match frames[t.toNat]? with
    | none => .error .indexError
    | some f =>
      if t < 0 then .error .indexError else do
      let ti ← insertFirst f.ti
      let nd ← insertFirst f.nd
      let nt ← insertFirst f.nt
      let he ← insertFirst (f.rho.map (fun _ => (0 : K)))
      .ok { rho := 0 :: f.rho, ionTemperature := ti.map (fun x => x * (1 / 1000)), dDensity := nd
            tDensity := nt, he3Density := he }

end interp

noncomputable section real

/-- The kinds of profile (`profile.py` 29-177) with their fixed parameters. -/
inductive ProfileKind
  | data (table : List (ℝ × ℝ))
  | parabolic (core alpha beta : ℝ)
  | pedestal (core ped sep alpha beta rhoPed : ℝ)

/-- A profile object: parameters and the mutable `_scale`. `profile.py` 14-26. -/
structure Profile where
  kind : ProfileKind
  scale : ℝ

/-- `ParabolicProfile.value` before scaling (`profile.py` 91-94).  Simplification: numpy's power of
zero to a negative exponent is `inf`, Lean's is 0; exponents are positive in the theorems. -/
def parabolicValue (core alpha beta rho : ℝ) : ℝ :=
  let rho := clip 0 1 rho
  let f := 1 - SignType.sign rho * |rho| ^ beta
  core * SignType.sign f * |f| ^ alpha

/-- `ParabolicPedestalProfile.value` before scaling (`profile.py` 135, 152-173), with `rho_ped`
clipped by the constructor.  For `rho_ped = 0` numpy computes `inf`/`nan` in the core branch, which
is then not selected. -/
def pedestalValue (core ped sep alpha beta rhoPed rho : ℝ) : ℝ :=
  let rhoPed := clip 0 1 rhoPed
  let rho := clip 0 1 rho
  let term := clip 0 1 (1 - (rho / rhoPed) ^ beta)
  let corePart := ped + (core - ped) * term ^ alpha
  let pedPart := if rhoPed = 1 then sep else sep + (ped - sep) * (1 - rho) / (1 - rhoPed)
  if rho < rhoPed then corePart else pedPart

/-- `value(rho)` of a profile object (`profile.py` 45-48, 72-95, 137-177). -/
def Profile.value (p : Profile) (rho : ℝ) : Except Err ℝ :=
  match p.kind with
  | .data table => dataValue table p.scale rho
  | .parabolic core alpha beta => .ok (p.scale * parabolicValue core alpha beta rho)
  | .pedestal core ped sep alpha beta rp =>
    .ok (pedestalValue core ped sep alpha beta rp rho * p.scale)

/-- `set_scale` (`profile.py` 24-26). -/
def Profile.setScale (p : Profile) (c : ℝ) : Profile := { p with scale := p.scale * c }

/-- `TransportInformation` (`transport.py` 57-65) with its profile objects (no sharing). -/
structure Transport where
  deuterium : Profile
  tritium : Profile
  helium3 : Profile
  temperature : Profile

/-- `TransportInformation.from_profiles` (`transport.py` 67-105).  Arrays of different lengths make
`interp1d` raise `ValueError`. -/
def Transport.fromProfiles (rho fuel temp : List ℝ) (c : Composition ℝ) : Except Err Transport :=
  if fuel.length ≠ rho.length ∨ temp.length ≠ rho.length then .error .valueError
  else .ok
    { deuterium := ⟨.data (List.zip rho (fuel.map (c.D * ·))), 1⟩
      tritium := ⟨.data (List.zip rho (fuel.map (c.T * ·))), 1⟩
      helium3 := ⟨.data (List.zip rho (fuel.map (c.He3 * ·))), 1⟩
      temperature := ⟨.data (List.zip rho temp), 1⟩ }

/-- `TransportInformation.from_jetto` (`transport.py` 145-176) on the decoded file content. -/
def Transport.fromJetto (frames : List (JspFrame ℝ)) (frameNumber : ℤ) : Except Err Transport := do
  let data ← loadJsp frames frameNumber
  if data.dDensity.length ≠ data.rho.length ∨ data.tDensity.length ≠ data.rho.length ∨
      data.he3Density.length ≠ data.rho.length ∨ data.ionTemperature.length ≠ data.rho.length then
    .error .valueError
  else .ok {
      deuterium := ⟨.data (List.zip data.rho data.dDensity), 1⟩
      tritium := ⟨.data (List.zip data.rho data.tDensity), 1⟩
      helium3 := ⟨.data (List.zip data.rho data.he3Density), 1⟩
      temperature := ⟨.data (List.zip data.rho data.ionTemperature), 1⟩ }

/-- Objects on the heap, by reference. For `transport.py` 130-143. -/
abbrev Heap := List Profile

/-- References held by a `TransportInformation`. `transport.py` 61-65. -/
structure TransportRef where
  deuterium : ℕ
  tritium : ℕ
  helium3 : ℕ
  temperature : ℕ
  deriving DecidableEq

/-- `obj.set_scale(c)` for the object with reference `i`. `profile.py` 24-26. -/
def Heap.setScale (h : Heap) (i : ℕ) (c : ℝ) : Heap := h.modify i (fun p => p.setScale c)

/-- `copy.deepcopy(obj)`: a new object with the same content. `transport.py` 130-134. -/
def Heap.deepcopy (h : Heap) (p : Profile) : Heap × ℕ := (h ++ [p], h.length)

/-- `TransportInformation.from_parameterisations` (`transport.py` 107-143), on the heap: `fuel`,
`temp` are the caller's objects. -/
def fromParameterisations (h : Heap) (temp fuel : ℕ) (c : Composition ℝ) :
    Option (Heap × TransportRef) := do
  let p ← h[fuel]?
  let _ ← h[temp]?
  let (h, d) := h.deepcopy p
  let h := h.setScale d c.D
  let p ← h[fuel]?
  let (h, t) := h.deepcopy p
  let h := h.setScale t c.T
  let p ← h[fuel]?
  let (h, he) := h.deepcopy p
  let h := h.setScale he c.He3
  some (h, ⟨d, t, he, temp⟩)

end real
end TNS
