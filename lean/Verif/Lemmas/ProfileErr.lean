import Verif.Spec.RoundedProfile
import Verif.Props.RoundedEnergy
import Verif.Props.Parabolic
import Mathlib.Analysis.Convex.SpecificFunctions.Basic
import Mathlib.Analysis.MeanInequalitiesPow
/-
Rounding errors of the profile formulas.
-/

set_option autoImplicit false

namespace TNS
open Spec
noncomputable section

theorem clip_eq_clamped (x : ℝ) : clip 0 1 x = clamped x := by
  unfold clip clamped
  rcases le_total x 0 with h | h
  · rw [max_eq_right h, min_eq_left (by norm_num), min_eq_left (by linarith), max_eq_left h]
  · rw [max_eq_left h, max_eq_right (le_min h (by norm_num))]

theorem clamped_mem (x : ℝ) : 0 ≤ clamped x ∧ clamped x ≤ 1 := by
  rw [← clip_eq_clamped]; exact clip_mem x

/-- One rounding of a value with a known absolute error. -/
theorem rd_absv {A : Arith} {u v : ℝ} (hA : StandardModel A u) (huv : u ≤ v) {x x' e M : ℝ} (h : |x' - x| ≤ e)
    (hM : |x| ≤ M) : |A.rd x' - x| ≤ (1 + v) * e + v * M := by
  have h0 := hA.u_nonneg
  have m : |x'| ≤ M + e := by
    have : x' = x + (x' - x) := by ring
    rw [this]
    exact (abs_add_le _ _).trans (by linarith)
  have r := hA.rel x'
  have : A.rd x' - x = (A.rd x' - x') + (x' - x) := by ring
  rw [this]
  refine (abs_add_le _ _).trans ?_
  have m1 : u * |x'| ≤ v * (M + e) := mul_le_mul huv m (abs_nonneg _) (h0.trans huv)
  linarith

theorem rd_zero' {A : Arith} {u : ℝ} (hA : StandardModel A u) : A.rd 0 = 0 := by
  have := hA.rel 0
  rw [abs_zero, mul_zero, sub_zero] at this
  exact abs_eq_zero.1 (le_antisymm this (abs_nonneg _))

/-- A rounding is a factor close to 1. -/
theorem rd_factor {A : Arith} {u v : ℝ} (hA : StandardModel A u) (huv : u ≤ v) (hv : v ≤ 1 / 100) (x : ℝ) :
    ∃ θ, A.rd x = x * θ ∧ LC (1.02 * v) θ 1 := by
  by_cases hx : x = 0
  · subst hx
    exact ⟨1, by rw [rd_zero' hA]; ring, (LC.refl one_pos).mono (by nlinarith [hA.u_nonneg])⟩
  · refine ⟨A.rd x / x, by field_simp, ?_⟩
    apply LC.of_rel one_pos hv
    have : A.rd x / x - 1 = (A.rd x - x) / x := by field_simp
    rw [this, abs_div, mul_one, div_le_iff₀ (abs_pos.2 hx)]
    exact (hA.rel x).trans (mul_le_mul_of_nonneg_right huv (abs_nonneg _))

theorem exp_hundredth : Real.exp (1 / 100) ≤ 1.02 := by
  have := Real.exp_bound_div_one_sub_of_interval (x := 1 / 100) (by norm_num) (by norm_num)
  refine this.trans ?_
  norm_num

theorem powLoss_nonneg {alpha h : ℝ} (ha : 0 < alpha) (hh : 0 ≤ h) : 0 ≤ powLoss alpha h := by
  unfold powLoss
  split_ifs with h1
  · positivity
  · positivity

theorem powLoss_mono {alpha h h' : ℝ} (ha : 0 < alpha) (hh : 0 ≤ h) (hle : h ≤ h') :
    powLoss alpha h ≤ powLoss alpha h' := by
  unfold powLoss
  split_ifs with h1
  · exact mul_le_mul_of_nonneg_left hle ha.le
  · exact Real.rpow_le_rpow hh hle ha.le

theorem pow_step {alpha h a b : ℝ} (ha : 0 < alpha) (hh : 0 ≤ h) (hah : alpha * h ≤ 1 / 100) (a0 : 0 ≤ a)
    (b1 : b ≤ 1 + h) (hab : a ≤ b) (hd : b - a ≤ h) : b ^ alpha - a ^ alpha ≤ 1.02 * powLoss alpha h := by
  have b0 := a0.trans hab
  unfold powLoss
  split_ifs with h1
  · rcases b0.eq_or_lt with hb | hb
    · have : a = 0 := le_antisymm (hb ▸ hab) a0
      rw [← hb, this, sub_self]
      positivity
    · have hs : -1 ≤ a / b - 1 := by
        have := div_nonneg a0 hb.le
        linarith
      have B := one_add_mul_self_le_rpow_one_add hs h1
      rw [show (1 : ℝ) + (a / b - 1) = a / b by ring, Real.div_rpow a0 hb.le] at B
      have hp := Real.rpow_pos_of_pos hb alpha
      rw [le_div_iff₀ hp] at B
      have e : (1 + alpha * (a / b - 1)) * b ^ alpha = b ^ alpha - alpha * (b - a) * (b ^ alpha / b) := by
        field_simp
        ring
      rw [e] at B
      have e2 : b ^ alpha / b = b ^ (alpha - 1) := by rw [Real.rpow_sub_one hb.ne']
      have e3 : b ^ (alpha - 1) ≤ 1.02 := by
        calc b ^ (alpha - 1) ≤ (1 + h) ^ (alpha - 1) := Real.rpow_le_rpow hb.le b1 (by linarith)
          _ ≤ (1 + h) ^ alpha := Real.rpow_le_rpow_of_exponent_le (by linarith) (by linarith)
          _ ≤ Real.exp h ^ alpha := Real.rpow_le_rpow (by linarith) (by linarith [Real.add_one_le_exp h]) ha.le
          _ = Real.exp (alpha * h) := by rw [← Real.exp_mul, mul_comm]
          _ ≤ Real.exp (1 / 100) := Real.exp_le_exp.2 hah
          _ ≤ 1.02 := exp_hundredth
      rw [e2] at B
      have : alpha * (b - a) * b ^ (alpha - 1) ≤ alpha * h * 1.02 :=
        mul_le_mul (mul_le_mul_of_nonneg_left hd ha.le) e3 (Real.rpow_nonneg hb.le _) (by positivity)
      linarith
  · push Not at h1
    have : b ^ alpha ≤ a ^ alpha + (b - a) ^ alpha := by
      obtain ⟨x, rfl⟩ : ∃ x : NNReal, (x : ℝ) = a := ⟨⟨a, a0⟩, rfl⟩
      obtain ⟨y, hy⟩ : ∃ y : NNReal, (y : ℝ) = b - x := ⟨⟨b - x, sub_nonneg.2 hab⟩, rfl⟩
      rw [← hy, show b = x + y by linarith]
      exact_mod_cast NNReal.rpow_add_le_add_rpow x y ha.le h1.le
    have h2 := Real.rpow_le_rpow (sub_nonneg.2 hab) hd ha.le
    have := Real.rpow_nonneg hh alpha
    linarith

/-- Powers of close numbers. -/
theorem pow_close {alpha h a b : ℝ} (ha : 0 < alpha) (hah : alpha * h ≤ 1 / 100) (a0 : 0 ≤ a)
    (b0 : 0 ≤ b) (a1 : a ≤ 1 + h) (b1 : b ≤ 1 + h) (hd : |a - b| ≤ h) :
    |a ^ alpha - b ^ alpha| ≤ 1.02 * powLoss alpha h := by
  have hh := (abs_nonneg _).trans hd
  rw [abs_le] at hd
  rcases le_total a b with h1 | h1
  · rw [abs_sub_comm, abs_of_nonneg (sub_nonneg.2 (Real.rpow_le_rpow a0 h1 ha.le))]
    exact pow_step ha hh hah a0 b1 h1 (by linarith)
  · rw [abs_of_nonneg (sub_nonneg.2 (Real.rpow_le_rpow b0 h1 ha.le))]
    exact pow_step ha hh hah b0 a1 h1 (by linarith)

section
variable {A : Arith} {F : MathLib} {u v : ℝ}

/-- The factor `1 - ρ^β`. -/
theorem factor_err (hA : StandardModel A u) (hF : AccurateLib F v) (huv : u ≤ v) (hv : v ≤ 1 / 1000)
    {beta : ℝ} (hb : 0 < beta) (rho : ℝ) :
    |parabolicFactorR A F beta rho - (1 - clamped rho ^ beta)| ≤ 4 * v := by
  have v0 := hA.u_nonneg.trans huv
  obtain ⟨c0, c1⟩ := clamped_mem rho
  unfold parabolicFactorR
  rw [clip_eq_clamped]
  have p0 := Real.rpow_nonneg c0 beta
  have p1 : clamped rho ^ beta ≤ 1 := Real.rpow_le_one c0 c1 hb.le
  have key : |A.rd (((SignType.sign (clamped rho) : SignType) : ℝ) * F.pow |clamped rho| beta) - clamped rho ^ beta| ≤
      2.01 * v := by
    rcases c0.eq_or_lt with h | h
    · rw [← h, sign_zero, SignType.coe_zero, zero_mul, rd_zero' hA, Real.zero_rpow hb.ne', sub_self, abs_zero]
      positivity
    · rw [sign_pos h, abs_of_pos h, SignType.coe_one, one_mul]
      have h1 := hF.pow (clamped rho) beta h
      have h2 : |F.pow (clamped rho) beta - clamped rho ^ beta| ≤ v := h1.trans (mul_le_of_le_one_right v0 p1)
      have h3 := rd_absv hA huv h2 (show |clamped rho ^ beta| ≤ 1 by rw [abs_of_nonneg p0]; exact p1)
      nlinarith
  have k2 : |(1 - A.rd (((SignType.sign (clamped rho) : SignType) : ℝ) * F.pow |clamped rho| beta)) -
      (1 - clamped rho ^ beta)| ≤ 2.01 * v := by
    rw [sub_sub_sub_cancel_left, abs_sub_comm]; exact key
  have k3 := rd_absv hA huv k2 (show |1 - clamped rho ^ beta| ≤ 1 by rw [abs_of_nonneg (by linarith)]; linarith)
  nlinarith

end

end
end TNS
