import Verif.Spec.SdefRead
import Verif.Spec.RoundedTT
import Verif.Spec.EnergyLaw
/-
Specification vocabulary for C111: what the energy cards of an SDEF file say.
-/

set_option autoImplicit false

namespace TNS.Spec
noncomputable section

/-- The energy cards of reaction `r` at ion temperature `T` (keV), as MCNP reads them.  D-T and D-D: the built-in Gaussian
fusion spectrum `SP2 -4 a b` with the code of the reaction and the temperature `a` in MeV to seven digits.  T-T: a histogram
from 0 with increasing energies in MeV, and the published spectrum up to a common factor, energies and densities to six
digits, at `T` brought into the range of the data up to `ε`. -/
def EnergyCards (ε : ℝ) (r : Neutronic) (T : ℝ) (cards : List (List (List Char))) : Prop :=
  match r with
  | .D_T => ∃ (a : List Char) (v : ℝ), cardArgs cards "SP2".toList "-4".toList = some [a, "-1".toList] ∧
      readFloat a = some v ∧ |v - T / 1000| ≤ 6 / 10 ^ 7 * (T / 1000)
  | .D_D => ∃ (a : List Char) (v : ℝ), cardArgs cards "SP2".toList "-4".toList = some [a, "-2".toList] ∧
      readFloat a = some v ∧ |v - T / 1000| ≤ 6 / 10 ^ 7 * (T / 1000)
  | .T_T => ∃ (t' : ℝ) (es ps : List ℝ) (c : ℝ), TableTemperature ε T t' ∧ 0 < c ∧
      cardNums cards "SI2".toList "H".toList = some (0 :: es) ∧ cardNums cards "SP2".toList "D".toList = some (0 :: ps) ∧
      (0 :: es).Pairwise (· < ·) ∧ (∀ q ∈ ps, 0 < q) ∧
      List.Forall₂ (fun (e : ℝ) (p : ℝ × ℝ) => |e - p.1 / 10 ^ 6| ≤ 6 / 10 ^ 6 * (p.1 / 10 ^ 6)) es (publishedTT t') ∧
      List.Forall₂ (fun (q : ℝ) (p : ℝ × ℝ) => |q - c * p.2| ≤ 6 / 10 ^ 6 * (c * p.2)) ps (publishedTT t')

end
end TNS.Spec
