import Verif.Model.Reactions
import Mathlib.Algebra.Field.Defs
import Mathlib.Algebra.Order.Field.Basic
/-
Model of `tokamak_neutron_source/constants.py`: unit conversion and energies per reaction.
-/

set_option autoImplicit false

namespace TNS

/-- Dimensions of the units used by the package, and the rates of `constants.py` 127 (others behave like
`other`). -/
inductive Dim
  | energy | mass | temperature
  | power | massRate | temperatureRate
  | other (n : ℕ)
  deriving DecidableEq, Repr

/-- A pint unit: a dimension and its size in SI base units. `constants.py` 272-274, `ureg.Unit`. -/
structure PUnit' (K : Type) where
  dim : Dim
  scale : K

section
variable {K : Type} [Field K]

/-- The two contexts enabled in the registry (`constants.py` 69-141, 144-145): mass to energy by
`c^2`, temperature to energy by `k_B`, and both also per unit of time (line 127).  Returns the factor to
energy or to power; `true` marks a rate. -/
def toEnergy (c2 kB : K) : Dim → Option (Bool × K)
  | .energy => some (false, 1)
  | .mass => some (false, c2)
  | .temperature => some (false, kB)
  | .power => some (true, 1)
  | .massRate => some (true, c2)
  | .temperatureRate => some (true, kB)
  | .other _ => none

/-- `raw_uc` (`constants.py` 248-282).  pint's conversion between multiplicative units is one
multiplication by the ratio of the unit sizes; incompatible dimensions raise a `PintError`
(`tnsError` here).  Units with an offset (degC) are not modelled.  The fallback for scaled units
(`"10^19/m^3"`, lines 275-282) is the same formula with the scale included in the unit's size. -/
def rawUc (c2 kB : K) (value : K) (a b : PUnit' K) : Except Err K :=
  if a.dim = b.dim then .ok (value * (a.scale / b.scale))
  else match toEnergy c2 kB a.dim, toEnergy c2 kB b.dim with
    | some fa, some fb =>
      if fa.1 = fb.1 then .ok (value * (a.scale * fa.2 / (b.scale * fb.2))) else .error .tnsError
    | _, _ => .error .tnsError

/-- `units_compatible` (`constants.py` 221-242): does converting 1 raise? -/
def unitsCompatible (c2 kB : K) (a b : PUnit' K) : Bool :=
  match rawUc c2 kB 1 a b with
  | .ok _ => true
  | .error _ => false

/-- Atomic and particle masses in u (`constants.py` 186-199, 208-218). -/
structure Masses (K : Type) where
  D : K
  T : K
  He : K
  He3 : K
  n : K
  p : K
  e : K

/-- `E_DT_FUSION` (`constants.py` 297-301); `c` is the u to J conversion factor. -/
def eDT (m : Masses K) (c : K) : K := (m.D + m.T - (m.He + m.n)) * c

/-- `E_DT_NEUTRON` (`constants.py` 305-309). -/
def eDTNeutron (m : Masses K) (c : K) : K :=
  (m.He - 2 * m.e) / (m.He - 2 * m.e + m.n) * eDT m c

/-- `E_DD_TP_FUSION` (`constants.py` 313-319). -/
def eDDp (m : Masses K) (c : K) : K := (m.D + m.D - (m.T + m.p + m.e)) * c

/-- `E_DD_HE3N_FUSION` (`constants.py` 323-327). -/
def eDDn (m : Masses K) (c : K) : K := (m.D + m.D - (m.He3 + m.n)) * c

/-- `E_DD_NEUTRON` (`constants.py` 331-335). -/
def eDDNeutron (m : Masses K) (c : K) : K :=
  (m.He3 - 2 * m.e) / (m.He3 - 2 * m.e + m.n) * eDDn m c

/-- `E_TT_FUSION` (`constants.py` 339-343). -/
def eTT (m : Masses K) (c : K) : K := (m.T + m.T - (m.He + 2 * m.n)) * c

/-- `E_TT_NEUTRON` (`constants.py` 347-349); `q` is `_TT_TO_5HE_Q_VALUE` in J. -/
def eTTNeutron (m : Masses K) (c q : K) : K := (q * 5 / 6 + (eTT m c - q) * 4 / 5) / 2

/-- `E_DHE3_FUSION` (`constants.py` 354-360). -/
def eDHe3 (m : Masses K) (c : K) : K := (m.D + m.He3 - (m.He + m.p + m.e)) * c

/-- The `total_energy` column of the enums (`reactions.py` 89, 97, 105, 118, 126). -/
def totalEnergy (m : Masses K) (c : K) : Reaction → K
  | .n .D_T => eDT m c
  | .n .D_D => eDDn m c
  | .n .T_T => eTT m c
  | .a .D_D => eDDp m c
  | .a .D_He3 => eDHe3 m c

end
end TNS
