import Verif.Model.RoundedXs
import Verif.Model.RoundedMake
import Verif.Spec.RoundedReactivity
import Verif.Spec.Agreement
import Mathlib.Analysis.Real.Pi.Bounds
/-
Specification vocabulary for the cross-section reactivity with rounding: floating point arithmetic with underflow, and
the value that would be computed without rounding.
-/

set_option autoImplicit false

namespace TNS.Spec
noncomputable section

/-- Floating point arithmetic with unit roundoff `u` whose numbers get coarse below `η` (gradual underflow): the error
of an operation is at most `u` times the result, or `u` times `η` if the result is smaller than `η`.  No overflow. -/
structure GradualModel (A : Arith) (u η : ℝ) : Prop where
  u_nonneg : 0 ≤ u
  zero : A.rd 0 = 0
  err : ∀ x, |A.rd x - x| ≤ u * max |x| η
  npSum : AddsUp A.rd A.npSum

/-- Library functions with relative error `v`, or absolute error `v * η` where the result is smaller than `η`. -/
structure GradualLib (F : MathLib) (v η : ℝ) : Prop where
  exp : ∀ x, |F.exp x - Real.exp x| ≤ v * max (Real.exp x) η
  sqrt : ∀ x, 0 ≤ x → |F.sqrt x - Real.sqrt x| ≤ v * max (Real.sqrt x) η
  pow : ∀ x y, 0 < x → |F.pow x y - x ^ y| ≤ v * max (x ^ y) η

/-- Rounding to binary64 numbers without overflow: 53 significant binary digits, but no bit below `2^-1074`. -/
def round64 (x : ℝ) : ℝ :=
  (round (x / (2 : ℝ) ^ (max (Int.log 2 |x|) (-1022) - 52)) : ℝ) * (2 : ℝ) ^ (max (Int.log 2 |x|) (-1022) - 52)

/-- binary64 with gradual underflow and sums from left to right. -/
def binary64u : Arith := ⟨round64, leftSum round64, leftSum round64⟩

/-- Correctly rounded library functions with gradual underflow. -/
def roundedLibU : MathLib :=
  ⟨fun x => round64 (Real.exp x), fun x => round64 (Real.sqrt x), fun x y => round64 (x ^ y)⟩

/-- The Maxwell average of the cross section in the data file of a reaction at a temperature in keV, without rounding. -/
def averagedReactivity (u : SI) (m : Masses ℝ) (r : Reaction) (t : ℝ) : ℝ :=
  maxwellAverage (r.crossSection u m).reducedMass u.keV (t * u.keV) (npInterp (r.crossSection u m).table)

/-- The reference for the reactivity of a reaction: the published fit if there is one and it is asked for, otherwise the
Maxwell average of the cross section. -/
def referenceReactivity (u : SI) (m : Masses ℝ) (method : ReactivityMethod) (r : Reaction) (t : ℝ) : ℝ :=
  if method ≠ .XS ∧ hasBoschHale r then publishedReactivity r t else averagedReactivity u m r t

/-- Sizes of the units and masses, to one digit. -/
structure RoughData (u : SI) (m : Masses ℝ) : Prop where
  keV : 1e-16 ≤ u.keV ∧ u.keV ≤ 2e-16
  amu : 1e-27 ≤ u.amu ∧ u.amu ≤ 2e-27
  D : 2 ≤ m.D ∧ m.D ≤ 3
  T : 3 ≤ m.T ∧ m.T ≤ 4
  He3 : 3 ≤ m.He3 ∧ m.He3 ≤ 4

end
end TNS.Spec
