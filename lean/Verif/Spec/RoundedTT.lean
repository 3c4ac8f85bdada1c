import Verif.Spec.RoundedEnergy
/-
Specification for C107: the temperature a computed T-T spectrum belongs to, and the scale factors between units.
-/

set_option autoImplicit false

namespace TNS.Spec

/-- `t'` is the temperature `t` brought into the tabulated range of 1 to 20 keV, up to `ε`; beyond the range it is its
end, without any error. -/
structure TableTemperature (ε t t' : ℝ) : Prop where
  lower : 1 ≤ t'
  upper : t' ≤ 20
  near : |t' - max 1 (min t 20)| ≤ ε
  below : t ≤ 1 → t' = 1
  above : 20 ≤ t → t' = 20

/-- A scale factor computed in floating point with at most ten roundings. -/
def ScaleFactor (u k k' : ℝ) : Prop := |k' - k| ≤ 10 * u * k

end TNS.Spec
