import Verif.Model.Workflow
import Verif.Model.RoundedXs
/-
Profiles and fuel composition with rounding, operation by operation.  Arguments, tables and parameters are floats;
`np.clip`, comparisons and `np.where` are exact.  See `Verif.Model.Rounded` and `Verif.Model.RoundedReactivity`.
-/

set_option autoImplicit false

namespace TNS
noncomputable section

/-- `DataProfile.value` (`profile.py` 45-48) with rounding. -/
def dataValueR (A : Arith) (table : List (ℝ × ℝ)) (scale rho : ℝ) : Except Err ℝ := do
  let v ← interp1dR A table (clip 0 1 rho)
  .ok (A.rd (scale * v))

/-- `f` of `ParabolicProfile.value` (`profile.py` 91-93) with rounding. -/
def parabolicFactorR (A : Arith) (F : MathLib) (beta rho : ℝ) : ℝ :=
  A.rd (1 - A.rd (SignType.sign (clip 0 1 rho) * F.pow |clip 0 1 rho| beta))

/-- `ParabolicProfile.value` before scaling (`profile.py` 91-94) with rounding. -/
def parabolicValueR (A : Arith) (F : MathLib) (core alpha beta rho : ℝ) : ℝ :=
  A.rd (A.rd (core * SignType.sign (parabolicFactorR A F beta rho)) * F.pow |parabolicFactorR A F beta rho| alpha)

/-- `core_part` (`profile.py` 155-162) with rounding, for clipped `rho` and `rho_ped`. -/
def pedestalCoreR (A : Arith) (F : MathLib) (core ped alpha beta rhoPed rho : ℝ) : ℝ :=
  A.rd (ped + A.rd (A.rd (core - ped) *
    F.pow (clip 0 1 (A.rd (1 - F.pow (A.rd (rho / rhoPed)) beta))) alpha))

open Classical in
/-- `ped_part` (`profile.py` 165-170) with rounding, for clipped `rho` and `rho_ped`. -/
def pedestalEdgeR (A : Arith) (ped sep rhoPed rho : ℝ) : ℝ :=
  if rhoPed = 1 then sep
  else A.rd (sep + A.rd (A.rd (A.rd (ped - sep) * A.rd (1 - rho)) / A.rd (1 - rhoPed)))

open Classical in
/-- `ParabolicPedestalProfile.value` before scaling (`profile.py` 135, 152-173) with rounding. -/
def pedestalValueR (A : Arith) (F : MathLib) (core ped sep alpha beta rhoPed rho : ℝ) : ℝ :=
  if clip 0 1 rho < clip 0 1 rhoPed then pedestalCoreR A F core ped alpha beta (clip 0 1 rhoPed) (clip 0 1 rho)
  else pedestalEdgeR A ped sep (clip 0 1 rhoPed) (clip 0 1 rho)

/-- `value(rho)` of a profile object (`profile.py` 45-48, 95, 174) with rounding. -/
def Profile.valueR (A : Arith) (F : MathLib) (p : Profile) (rho : ℝ) : Except Err ℝ :=
  match p.kind with
  | .data table => dataValueR A table p.scale rho
  | .parabolic core alpha beta => .ok (A.rd (p.scale * parabolicValueR A F core alpha beta rho))
  | .pedestal core ped sep alpha beta rp =>
    .ok (A.rd (pedestalValueR A F core ped sep alpha beta rp rho * p.scale))

/-- `set_scale` (`profile.py` 24-26) with rounding. -/
def Profile.setScaleR (A : Arith) (p : Profile) (c : ℝ) : Profile := { p with scale := A.rd (p.scale * c) }

open Classical in
/-- `FractionalFuelComposition.__post_init__` (`transport.py` 43-51) with rounding; `sum` is the built-in one. -/
def Composition.makeR (A : Arith) (d t h : ℝ) : Except Err (Composition ℝ) :=
  if A.pySum [d, t, h] ≠ 1 then
    if A.pySum [d, t, h] = 0 then .error .zeroDivisionError
    else .ok ⟨A.rd (d / A.pySum [d, t, h]), A.rd (t / A.pySum [d, t, h]), A.rd (h / A.pySum [d, t, h])⟩
  else .ok ⟨d, t, h⟩

/-- `TransportInformation.from_profiles` (`transport.py` 67-105) with rounding, see `Transport.fromProfiles`. -/
def Transport.fromProfilesR (A : Arith) (rho fuel temp : List ℝ) (c : Composition ℝ) : Except Err Transport :=
  if fuel.length ≠ rho.length ∨ temp.length ≠ rho.length then .error .valueError
  else .ok
    { deuterium := ⟨.data (List.zip rho (fuel.map fun n => A.rd (c.D * n))), 1⟩
      tritium := ⟨.data (List.zip rho (fuel.map fun n => A.rd (c.T * n))), 1⟩
      helium3 := ⟨.data (List.zip rho (fuel.map fun n => A.rd (c.He3 * n))), 1⟩
      temperature := ⟨.data (List.zip rho temp), 1⟩ }

/-- `TransportInformation.from_parameterisations` (`transport.py` 107-143) with rounding, on the contents of the
objects (the heap is followed in `fromParameterisations`). -/
def Transport.fromParameterisationsR (A : Arith) (temp fuel : Profile) (c : Composition ℝ) : Transport :=
  { deuterium := fuel.setScaleR A c.D
    tritium := fuel.setScaleR A c.T
    helium3 := fuel.setScaleR A c.He3
    temperature := temp }

/-- The four `value` functions the constructor calls (`main.py` 111-121, `transport.py` 61-64) with rounding. -/
def Transport.viewR (A : Arith) (F : MathLib) (tr : Transport) : TransportView ℝ :=
  { temperature := tr.temperature.valueR A F, deuterium := tr.deuterium.valueR A F
    tritium := tr.tritium.valueR A F, helium3 := tr.helium3.valueR A F }

end
end TNS
