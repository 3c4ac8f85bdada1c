import Verif.Spec.Reactivity
import Verif.Model.Reactivity
import Verif.Model.Source
import Verif.Spec.Agreement
/-
Temperatures up to which the thermal reactivities are claimed to rise.
-/

set_option autoImplicit false

namespace TNS.Spec

/-- In keV, for the Bosch-Hale formulas. -/
noncomputable def boschHaleLimit : Reaction → ℝ
  | .n .D_T => 66
  | .n .D_D => 960
  | .n .T_T => 0
  | .a .D_D => 300
  | .a .D_He3 => 0

/-- In keV, for the Maxwell averages of the tabulated cross sections. -/
noncomputable def crossSectionLimit : Reaction → ℝ
  | .n .D_T => 64
  | .n .D_D => 100
  | .n .T_T => 100
  | .a .D_D => 100
  | .a .D_He3 => 66

/-- The masses of the reactants to the digits in which published values agree; for ³He only that it is at
least 1.49 times as heavy as the deuteron. -/
structure KnownMasses (u : SI) (m : Masses ℝ) : Prop where
  measured : Measured u m
  He3 : 1.49 * m.D ≤ m.He3

/-- By method: only D-T and the two branches of D-D have Bosch-Hale formulas. -/
noncomputable def riseLimit (method : ReactivityMethod) (r : Reaction) : ℝ :=
  if method ≠ .XS ∧ hasBoschHale r then boschHaleLimit r else crossSectionLimit r

/-- Two sources with the same cells and reactions, the first of which emits at most as much as the second,
in every respect: each reaction in each cell, the rates of each reaction and of its neutrons, the neutron
rate, the tritium consumption, the fusion power. -/
structure EmitsAtMost {K : Type} [Field K] [LinearOrder K] (Q : Reaction → K) (s s' : Source K) :
    Prop where
  sourceType : s.sourceType = s'.sourceType
  x : s.x = s'.x
  z : s.z = s'.z
  dVolume : s.dVolume = s'.dVolume
  strength : ∀ r, List.Forall₂ (· ≤ ·) (s.strength.getD r []) (s'.strength.getD r [])
  numReactions : ∀ r, s.numReactions.getD r 0 ≤ s'.numReactions.getD r 0
  numNeutrons : ∀ r, s.numNeutrons.getD r 0 ≤ s'.numNeutrons.getD r 0
  sourceRate : s.sourceRate ≤ s'.sourceRate
  sourceTRate : s.sourceTRate ≤ s'.sourceTRate
  power : s.totalPower Q ≤ s'.totalPower Q

/-- `f` is at most `g`, both non-negative, wherever both have a value. -/
def AtMost {K : Type} [Zero K] [LE K] (f g : K → Except Err K) : Prop :=
  ∀ p a b, f p = .ok a → g p = .ok b → 0 ≤ a ∧ a ≤ b

end TNS.Spec
