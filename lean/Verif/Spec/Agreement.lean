import Verif.Props.Reactivity
import Verif.Model.Source
/-
Specification: measured values of the constants that enter the reactivities.
-/

set_option autoImplicit false

namespace TNS.Spec

/-- The masses of the deuteron and triton (as atoms, in atomic mass units), the keV (J) and the atomic mass
unit (kg) to the digits in which all published values agree. -/
structure Measured (u : SI) (m : Masses ℝ) : Prop where
  D : 2.0141017 ≤ m.D ∧ m.D ≤ 2.0141018
  T : 3.0160492 ≤ m.T ∧ m.T ≤ 3.0160493
  keV : 1.60217663e-16 ≤ u.keV ∧ u.keV ≤ 1.60217664e-16
  amu : 1.66053906e-27 ≤ u.amu ∧ u.amu ≤ 1.66053907e-27

/-- For the temperatures `ts` the two methods both give reactivities of `r`, one per temperature, all
positive, and the one from cross sections is between `lo` and `hi` times the one from Bosch-Hale. -/
def MethodsAgree (u : SI) (m : Masses ℝ) (r : Reaction) (lo hi : ℝ) (ts : List ℝ) : Prop :=
  ∃ xs bh, reactivity u m .XS r ts = .ok xs ∧ reactivity u m .BOSCH_HALE r ts = .ok bh ∧
    bh.length = ts.length ∧ List.Forall₂ (fun x b => 0 < b ∧ lo * b ≤ x ∧ x ≤ hi * b) xs bh

/-- How far, relatively, the two methods can be apart for `r`, from the lowest temperature (keV) at which they
are that close up to 100 keV. The reactions without Bosch-Hale data use the cross sections either way. -/
noncomputable def methodGap : Reaction → ℝ
  | .DT => 0.0074
  | .DDn => 0.0282
  | .DDp => 0.0192
  | _ => 0

noncomputable def gapFrom : Reaction → ℝ
  | .DT => 0.2
  | .DDn => 0.3
  | .DDp => 0.6
  | _ => 0

/-- Source `s` has the same cells as `s'`, and all its strengths, rates and powers are those of `s'` up to
the relative difference `ε`. -/
structure EmitsWithin {K : Type} [Field K] [LinearOrder K] (ε : K) (Q : Reaction → K) (s s' : Source K) :
    Prop where
  sourceType : s.sourceType = s'.sourceType
  x : s.x = s'.x
  z : s.z = s'.z
  dVolume : s.dVolume = s'.dVolume
  strength : ∀ r, List.Forall₂ (fun a b => |a - b| ≤ ε * b) (s.strength.getD r []) (s'.strength.getD r [])
  numReactions : ∀ r, |s.numReactions.getD r 0 - s'.numReactions.getD r 0| ≤ ε * s'.numReactions.getD r 0
  numNeutrons : ∀ r, |s.numNeutrons.getD r 0 - s'.numNeutrons.getD r 0| ≤ ε * s'.numNeutrons.getD r 0
  sourceRate : |s.sourceRate - s'.sourceRate| ≤ ε * s'.sourceRate
  sourceTRate : |s.sourceTRate - s'.sourceTRate| ≤ ε * s'.sourceTRate
  power : |s.totalPower Q - s'.totalPower Q| ≤ ε * s'.totalPower Q

end TNS.Spec
