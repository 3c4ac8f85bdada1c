import Verif.Model.Reactions
import Verif.Model.Constants
import Verif.Model.Profile
import Verif.Model.Trapezoid
import Verif.Data.CrossSections
import Mathlib.Analysis.SpecialFunctions.Pow.Real
import Mathlib.Analysis.SpecialFunctions.Exp
import Mathlib.Analysis.SpecialFunctions.Trigonometric.Basic
/-
Model of `tokamak_neutron_source/reactivity.py` and `tokamak_neutron_source/reactivity_data.py`.
Numbers are exact reals; where numpy would go on with `inf`/`nan` the model returns `nonFinite`.
-/

set_option autoImplicit false

namespace TNS

/-- `ReactivityMethod` (`reactivity.py` 35-40). -/
inductive ReactivityMethod
  | XS | BOSCH_HALE | AUTO
  deriving DecidableEq, Repr

noncomputable section

/-- `BoschHaleCoefficients` (`reactivity_data.py` 63-77), without the name. -/
structure BoschHale where
  tMin : ℝ
  tMax : ℝ
  bg : ℝ
  mrc2 : ℝ
  c0 : ℝ
  c1 : ℝ
  c2 : ℝ
  c3 : ℝ
  c4 : ℝ
  c5 : ℝ
  c6 : ℝ

/-- `BOSCH_HALE_DT_4HEN` (`reactivity_data.py` 88-105). -/
def boschHaleDT : BoschHale :=
  { tMin := 0.2, tMax := 100.0, bg := 34.3827, mrc2 := 1.124656e6, c0 := 1.17302e-9
    c1 := 1.51361e-2, c2 := 7.51886e-2, c3 := 4.60643e-3, c4 := 1.35000e-2, c5 := -1.06750e-4
    c6 := 1.36600e-5 }

/-- `BOSCH_HALE_DD_3HEN` (`reactivity_data.py` 108-125). -/
def boschHaleDDn : BoschHale :=
  { tMin := 0.2, tMax := 100.0, bg := 31.3970, mrc2 := 0.937814e6, c0 := 5.43360e-12
    c1 := 5.85778e-3, c2 := 7.68222e-3, c3 := 0.0, c4 := -2.96400e-6, c5 := 0.0, c6 := 0.0 }

/-- `BOSCH_HALE_DD_TP` (`reactivity_data.py` 128-145). -/
def boschHaleDDp : BoschHale :=
  { tMin := 0.2, tMax := 100.0, bg := 31.3970, mrc2 := 0.937814e6, c0 := 5.65718e-12
    c1 := 3.41267e-3, c2 := 1.99167e-3, c3 := 0.0, c4 := 1.05060e-5, c5 := 0.0, c6 := 0.0 }

/-- The `bosch_hale_coefficients` column of the enum tables (`reactions.py` 92, 100, 108, 121,
129). -/
def Reaction.boschHale : Reaction → Option BoschHale
  | .n .D_T => some boschHaleDT
  | .n .D_D => some boschHaleDDn
  | .n .T_T => none
  | .a .D_D => some boschHaleDDp
  | .a .D_He3 => none

/-- The numerator of `frac` (`reactivity.py` 213-214). -/
def BoschHale.num (b : BoschHale) (t : ℝ) : ℝ := t * (b.c1 + t * (b.c3 + t * b.c5))

/-- The denominator of `frac` (`reactivity.py` 215-219). -/
def BoschHale.den (b : BoschHale) (t : ℝ) : ℝ := 1 + t * (b.c2 + t * (b.c4 + t * b.c6))

/-- One entry of the result of `_reactivity_channel_bosch_hale` (`reactivity.py` 204-229).  Entries
that are not `> 0` stay 0.  `1 - frac <= 0` (or a zero denominator) makes `theta` infinite or
negative, and the cube root of a negative float is `nan`: marked `nonFinite`. -/
def BoschHale.entry (b : BoschHale) (t : ℝ) : Except Err ℝ :=
  if 0 < t then
    let frac := b.num t / b.den t
    if b.den t = 0 ∨ 1 - frac ≤ 0 then .error .nonFinite
    else
      let theta := t / (1 - frac)
      let chi := (b.bg ^ 2 / (4 * theta)) ^ ((1 : ℝ) / 3)
      .ok (1e-6 * b.c0 * theta * Real.sqrt (chi / (b.mrc2 * t ^ 3)) * Real.exp (-3 * chi))
  else .ok 0

/-- Does `_reactivity_channel_bosch_hale` log a warning (`reactivity.py` 196-202)? -/
def BoschHale.warns (b : BoschHale) (ts : List ℝ) : Prop := ∃ t ∈ ts, t < b.tMin ∨ b.tMax < t

/-- `_reactivity_channel_bosch_hale` (`reactivity.py` 173-231) on an array; `np.min` of an empty
array raises `ValueError`.  A scalar argument is the one-element array (lines 193-194). -/
def BoschHale.channel (b : BoschHale) (ts : List ℝ) : Except Err (List ℝ) :=
  if ts = [] then .error .valueError else ts.mapM b.entry

/-- Unit sizes used by the cross-section integral: keV and amu in SI.
`reactivity_data.py` 48, `reactivity.py` 255-258. -/
structure SI where
  keV : ℝ
  amu : ℝ

/-- The rows read by `np.genfromtxt(file, comments="#", skip_footer=2)` (`reactivity_data.py` 40),
in MeV and barn.  The file ends with a line `//` and a comment line; `genfromtxt` ignores the
comment, counts the malformed line `//` against `skip_footer` and therefore also drops the last data
row. -/
def genfromtxt (rows : List (Nat × Nat)) : List (ℝ × ℝ) :=
  rows.dropLast.map (fun p => ((p.1 : ℝ) / 10 ^ 12, (p.2 : ℝ) / 10 ^ 50))

/-- `ReactionCrossSection` (`reactivity_data.py` 18-59). -/
structure CrossSection where
  reducedMass : ℝ
  table : List (ℝ × ℝ)

/-- `ReactionCrossSection.__init__` (`reactivity_data.py` 21-55) on the content of the file; `m1` is
the mass of the collider, `m2` of the target. -/
def CrossSection.load (u : SI) (m1 m2 : ℝ) (rows : List (ℝ × ℝ)) : CrossSection :=
  { reducedMass := m1 * m2 / (m1 + m2) * u.amu
    table := rows.map (fun p => (p.1 * (m2 / (m1 + m2)) * 1e3, p.2 * 1e-28)) }

/-- The `cross_section` column of the enum tables (`reactions.py` 91, 99, 107, 120, 128) with the
files of `reactivity_data.py` 80-84; collider and target come from the file names. -/
def Reaction.crossSection (u : SI) (m : Masses ℝ) : Reaction → CrossSection
  | .n .D_T => .load u m.D m.T (genfromtxt Data.dtRows)
  | .n .D_D => .load u m.D m.D (genfromtxt Data.ddnRows)
  | .n .T_T => .load u m.T m.T (genfromtxt Data.ttRows)
  | .a .D_D => .load u m.D m.D (genfromtxt Data.ddpRows)
  | .a .D_He3 => .load u m.D m.He3 (genfromtxt Data.dhe3Rows)

/-- `ReactionCrossSection.__call__` (`reactivity_data.py` 57-59). -/
def CrossSection.call (xs : CrossSection) (t : ℝ) : Except Err ℝ := interp1d xs.table t

/-- `t_grid_kev = np.logspace(0, 3, 1000)` (`reactivity.py` 257). -/
def tGridKeV : List ℝ := (List.range 1000).map (fun i : ℕ => (10 : ℝ) ^ (3 * (i : ℝ) / 999))

/-- One entry of the result of `_reactivity_from_xs` (`reactivity.py` 254-264), given the cross
section on the grid.  At `T = 0` the code computes `inf * 0 = nan`, at `T < 0` the power is `nan`. -/
def CrossSection.entry (u : SI) (xs : CrossSection) (sigma : List ℝ) (t : ℝ) : Except Err ℝ :=
  if t ≤ 0 then .error .nonFinite
  else
    let tj := t * u.keV
    let factor := 4 / Real.sqrt (2 * Real.pi * xs.reducedMass) / tj ^ (1.5 : ℝ)
    .ok (trapezoid (List.zipWith
      (fun e s => (e * u.keV, factor * s * (e * u.keV) * Real.exp (-(e * u.keV) / tj)))
      tGridKeV sigma))

/-- `_reactivity_from_xs` (`reactivity.py` 234-265) on an array. -/
def CrossSection.reactivity (u : SI) (xs : CrossSection) (ts : List ℝ) : Except Err (List ℝ) := do
  let sigma ← tGridKeV.mapM xs.call
  ts.mapM (xs.entry u sigma)

/-- `_reactivity_bosch_hale` (`reactivity.py` 136-170). -/
def reactivityBoschHale (ts : List ℝ) (r : Reaction) : Except Err (List ℝ) :=
  match r.boschHale with
  | some b => b.channel ts
  | none => .error .reactivityError

/-- `reactivity` (`reactivity.py` 93-133) for a parsed reaction. -/
def reactivity (u : SI) (m : Masses ℝ) (method : ReactivityMethod) (r : Reaction) (ts : List ℝ) :
    Except Err (List ℝ) :=
  match method with
  | .AUTO =>
    match r.boschHale with
    | some _ => reactivityBoschHale ts r
    | none => (r.crossSection u m).reactivity u ts
  | .BOSCH_HALE =>
    match r.boschHale with
    | some _ => reactivityBoschHale ts r
    | none => (r.crossSection u m).reactivity u ts
  | .XS => (r.crossSection u m).reactivity u ts

/-- `reactivity` (`reactivity.py` 93-133) including the parsing of the argument (line 116). -/
def reactivityArg (u : SI) (m : Masses ℝ) (method : ReactivityMethod) (arg : ReactionArg)
    (ts : List ℝ) : Except Err (List ℝ) := do
  let r ← parseReaction arg
  reactivity u m method r ts

end
end TNS
