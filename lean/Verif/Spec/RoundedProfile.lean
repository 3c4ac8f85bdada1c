import Verif.Model.RoundedProfile
import Verif.Spec.RoundedMake
/-
Specification for C100: the profile shapes by their formulas, and what is asked of the library.
-/

set_option autoImplicit false

namespace TNS.Spec
noncomputable section

/-- A radius brought into [0, 1]. -/
def clamped (rho : ℝ) : ℝ := max 0 (min rho 1)

/-- `core (1 - ρ^β)^α`. -/
def parabola (core alpha beta rho : ℝ) : ℝ := core * (1 - clamped rho ^ beta) ^ alpha

/-- A parabola on a pedestal inside the radius `rp`, a straight line from the pedestal to the separatrix outside. -/
def parabolaOnPedestal (core ped sep alpha beta rp rho : ℝ) : ℝ :=
  if clamped rho < rp then ped + (core - ped) * (1 - (clamped rho / rp) ^ beta) ^ alpha
  else sep + (ped - sep) * ((1 - clamped rho) / (1 - rp))

/-- How much `x^α` can change on [0, 1] when `x` changes by `h`. -/
def powLoss (alpha h : ℝ) : ℝ := if 1 ≤ alpha then alpha * h else h ^ alpha

/-- The power function of the library is exact at 0 (positive exponents), as IEEE 754 and C require. -/
def PowZero (F : MathLib) : Prop := ∀ y, 0 < y → F.pow 0 y = 0

/-- Rounding never reverses an order, and the power function is exact at 0 and 1 and does not decrease in the base
(positive exponents). -/
structure OrderPreserving (A : Arith) (F : MathLib) : Prop where
  rd : Monotone A.rd
  rd_zero : A.rd 0 = 0
  rd_one : A.rd 1 = 1
  zero : ∀ y, 0 < y → F.pow 0 y = 0
  one : ∀ y, 0 < y → F.pow 1 y = 1
  pow : ∀ y, 0 < y → ∀ x x', 0 ≤ x → x ≤ x' → F.pow x y ≤ F.pow x' y

/-- The values `y'` of a profile agree with `y` to the relative accuracy `δ`. -/
def AgreeAt (δ : ℝ) (f' f : ℝ → Except Err ℝ) (rho : ℝ) : Prop :=
  ∃ y' y, f' rho = .ok y' ∧ f rho = .ok y ∧ |y' - y| ≤ δ * y

/-- A profile shape is evaluated to the relative accuracy `δ` at a radius, for every non-negative scale. -/
def ProfileAgrees (A : Arith) (F : MathLib) (δ : ℝ) (kind : ProfileKind) (rho : ℝ) : Prop :=
  ∀ scale, 0 ≤ scale → AgreeAt δ ((Profile.mk kind scale).valueR A F) (Profile.mk kind scale).value rho

/-- A plasma with ion temperature `temp` and fuel density `fuel`, the fuel being made of `d` : `t` : `h` parts of
deuterium, tritium and helium-3. -/
def idealPlasma (temp fuel : ℝ → Except Err ℝ) (d t h : ℝ) : TransportView ℝ where
  temperature := temp
  deuterium rho := (fuel rho).map fun n => d / (d + t + h) * n
  tritium rho := (fuel rho).map fun n => t / (d + t + h) * n
  helium3 rho := (fuel rho).map fun n => h / (d + t + h) * n

/-- All four profiles of a plasma agree with those of another one at a radius, to the relative accuracy `δ`. -/
structure PlasmaAgrees (δ : ℝ) (tr' tr : TransportView ℝ) (rho : ℝ) : Prop where
  temperature : AgreeAt δ tr'.temperature tr.temperature rho
  deuterium : AgreeAt δ tr'.deuterium tr.deuterium rho
  tritium : AgreeAt δ tr'.tritium tr.tritium rho
  helium3 : AgreeAt δ tr'.helium3 tr.helium3 rho

end
end TNS.Spec
