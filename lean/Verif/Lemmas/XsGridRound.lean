import Verif.Lemmas.XsSigma
/-
The energy grid, the prefactor and the integrand with rounding.
-/

set_option autoImplicit false

namespace TNS
open Spec
noncomputable section

/-- The computed grid. -/
def gridR (A : Arith) (F : MathLib) (i : ℕ) : ℝ :=
  F.pow 10 (if i = 999 then 3 else A.rd (A.rd ((i : ℝ) * A.rd (3 / 999)) + 0))

theorem log_ten_le : Real.log 10 ≤ 2.311 := by
  have h : Real.log ((10 : ℝ) ^ 3) ≤ Real.log ((2 : ℝ) ^ 10) := Real.log_le_log (by norm_num) (by norm_num)
  rw [Real.log_pow, Real.log_pow] at h
  have := Real.log_two_lt_d9
  push_cast at h
  linarith

variable {A : Arith} {F : MathLib} {u v η : ℝ}

theorem gridR_close (S : Setting A F u v η) (i : ℕ) (hi : i ≤ 999) : LC (26 * v) (gridR A F i) (logEnergy i) := by
  have hv := S.v_nonneg
  have hv1 := S.v_le
  obtain ⟨τ, hτ⟩ : ∃ τ : ℝ, τ = 1 / 10 ^ 250 := ⟨_, rfl⟩
  have hτ0 : 0 < τ := by rw [hτ]; positivity
  have hτ1 : τ ≤ 1 / 1000 := by rw [hτ]; norm_num
  have err : ∀ x, |A.rd x - x| ≤ v * |x| + v * τ := by intro x; rw [hτ]; exact S.err x
  have hexp : |(if i = 999 then (3 : ℝ) else A.rd (A.rd ((i : ℝ) * A.rd (3 / 999)) + 0)) - 3 * (i : ℝ) / 999| ≤ 9.2 * v := by
    by_cases h : i = 999
    · rw [if_pos h, h]
      norm_num
      exact hv
    · rw [if_neg h]
      have hi' : (i : ℝ) ≤ 999 := by exact_mod_cast hi
      have hi0 : (0 : ℝ) ≤ i := by positivity
      have e3 : |(3 : ℝ) / 999| = 3 / 999 := abs_of_pos (by norm_num)
      have r1 := S.rel (x := 3 / 999) (by rw [e3]; norm_num)
      rw [e3] at r1
      set st := A.rd (3 / 999)
      have m1 : |(i : ℝ) * st - 3 * i / 999| ≤ 3 * v := by
        have e : (i : ℝ) * st - 3 * i / 999 = i * (st - 3 / 999) := by ring
        rw [e, abs_mul, abs_of_nonneg hi0]
        have := mul_le_mul hi' r1 (abs_nonneg _) (by norm_num)
        linarith
      have b0 : 3 * (i : ℝ) / 999 ≤ 3 := by linarith
      have b0' : 0 ≤ 3 * (i : ℝ) / 999 := by positivity
      have n1 : |(i : ℝ) * st| ≤ 3.01 := by
        have := abs_le.1 m1
        rw [abs_le]
        constructor <;> linarith
      have r2 := err ((i : ℝ) * st)
      set a := A.rd ((i : ℝ) * st)
      have n2 : |a| ≤ 3.02 := by
        have := abs_le.1 n1
        have k : v * |(i : ℝ) * st| ≤ v * 3.01 := mul_le_mul_of_nonneg_left n1 hv
        have k2 : v * τ ≤ v * (1 / 1000) := mul_le_mul_of_nonneg_left hτ1 hv
        have := abs_le.1 r2
        rw [abs_le]
        constructor <;> linarith
      have r3 := err (a + 0)
      rw [add_zero] at r3 ⊢
      have e : A.rd a - 3 * (i : ℝ) / 999 = (A.rd a - a) + ((a - i * st) + (i * st - 3 * i / 999)) := by ring
      rw [e]
      refine (abs_add_le _ _).trans ?_
      have t := abs_add_le (a - i * st) (i * st - 3 * (i : ℝ) / 999)
      have k : v * |(i : ℝ) * st| ≤ v * 3.01 := mul_le_mul_of_nonneg_left n1 hv
      have k2 : v * τ ≤ v * (1 / 1000) := mul_le_mul_of_nonneg_left hτ1 hv
      have k3 : v * |a| ≤ v * 3.02 := mul_le_mul_of_nonneg_left n2 hv
      linarith
  unfold gridR
  set y := (if i = 999 then (3 : ℝ) else A.rd (A.rd ((i : ℝ) * A.rd (3 / 999)) + 0))
  have hy : -1 ≤ y := by
    have := (abs_le.1 hexp).1
    have b0' : 0 ≤ 3 * (i : ℝ) / 999 := by positivity
    linarith
  have hp : (10 : ℝ)⁻¹ ≤ (10 : ℝ) ^ y := by
    rw [← Real.rpow_neg_one]
    exact Real.rpow_le_rpow_of_exponent_le (by norm_num) hy
  have l1 := S.pow 10 y (by norm_num) (le_trans (by norm_num) hp)
  have l2 : LC (9.2 * v * 2.311) ((10 : ℝ) ^ y) (logEnergy i) := by
    refine ⟨by positivity, by unfold logEnergy; positivity, ?_⟩
    unfold logEnergy
    rw [Real.log_rpow (by norm_num), Real.log_rpow (by norm_num), ← sub_mul, abs_mul,
      abs_of_pos (Real.log_pos (by norm_num))]
    exact mul_le_mul hexp log_ten_le (Real.log_nonneg (by norm_num)) (by positivity)
  exact (l1.trans l2).mono (by linarith)

theorem logEnergy_mem (i : ℕ) (hi : i ≤ 999) : 1 ≤ logEnergy i ∧ logEnergy i ≤ 1000 :=
  tGrid_mem _ (List.mem_map.2 ⟨i, List.mem_range.2 (by omega), rfl⟩)

/-- The spacing of the grid. -/
theorem logEnergy_spacing (i : ℕ) : logEnergy (i + 1) + logEnergy i ≤ 300 * (logEnergy (i + 1) - logEnergy i) := by
  have e : logEnergy (i + 1) = logEnergy i * (10 : ℝ) ^ ((1 : ℝ) / 333) := by
    unfold logEnergy
    rw [← Real.rpow_add (by norm_num)]
    congr 1
    push_cast
    ring
  have h1 : (1.00686 : ℝ) ≤ (10 : ℝ) ^ ((1 : ℝ) / 333) := by
    have h : Real.log ((2 : ℝ) ^ 33) ≤ Real.log ((10 : ℝ) ^ 10) := Real.log_le_log (by norm_num) (by norm_num)
    rw [Real.log_pow, Real.log_pow] at h
    have := Real.log_two_gt_d9
    push_cast at h
    rw [Real.rpow_def_of_pos (by norm_num)]
    have := Real.add_one_le_exp (Real.log 10 * (1 / 333))
    linarith
  have : 0 < logEnergy i := by unfold logEnergy; positivity
  rw [e]
  nlinarith

end
end TNS
