import Verif.Lemmas.Interpolate
/-
Moments of the tables of bell-shaped functions on the grid `μ ± 6σ`.
-/

set_option autoImplicit false
set_option linter.unusedSectionVars false

namespace TNS
open Spec

theorem integral_square (μ σ k r : ℝ) :
    ∫ x in (μ - 6 * σ)..(μ + 6 * σ), (k * (x - μ) ^ 2 + r) = k * (144 * σ ^ 3) + r * (12 * σ) := by
  have : ∀ x ∈ Set.uIcc (μ - 6 * σ) (μ + 6 * σ), HasDerivAt (fun x => k * ((x - μ) ^ 3 / 3) + r * x)
      (k * (x - μ) ^ 2 + r) x := by
    intro x _
    have := (((((hasDerivAt_id x).sub_const μ).pow 3).div_const 3).const_mul k).add
      ((hasDerivAt_id x).const_mul r)
    refine this.congr_deriv ?_
    simp only [id, mul_one]; push_cast; ring
  rw [intervalIntegral.integral_eq_sub_of_hasDerivAt this (by
    apply Continuous.intervalIntegrable; fun_prop)]
  ring

theorem deviation_of (σ V a b : ℝ) (hσ : 0 < σ) (var : V = a + σ ^ 2 - b ^ 2) (d2 : |a| ≤ σ ^ 2 / 75)
    (d3 : b ^ 2 ≤ (σ / 310) ^ 2) (d4 : 0 ≤ b ^ 2) : |Real.sqrt V - σ| ≤ σ / 100 := by
  have s2 : 0 < σ ^ 2 := by positivity
  rw [div_pow] at d3
  obtain ⟨x, y⟩ := abs_le.1 d2
  have lo : (99 / 100 * σ) ^ 2 ≤ V := by
    rw [var, mul_pow]; linarith
  have hi : V ≤ (101 / 100 * σ) ^ 2 := by
    rw [var, mul_pow]; linarith
  have a := Real.le_sqrt_of_sq_le lo
  have b := Real.sqrt_le_iff.2 ⟨by positivity, hi⟩
  rw [abs_le]
  constructor <;> linarith

theorem bell_moments (f f' f'' : ℝ → ℝ) (μ σ c : ℝ) (hσ : 0 < σ) (hc : 0 < c)
    (h1 : ∀ x ∈ Set.Icc (μ - 6 * σ) (μ + 6 * σ), HasDerivAt f (f' x) x)
    (h2 : ∀ x ∈ Set.Icc (μ - 6 * σ) (μ + 6 * σ), HasDerivAt f' (f'' x) x)
    (hK : ∀ x ∈ Set.Icc (μ - 6 * σ) (μ + 6 * σ), |f'' x| ≤ 4 / σ ^ 2)
    (h0 : ∀ x, 0 ≤ f x) (hh : ∀ x ∈ Set.Icc (μ - σ) (μ + σ), 1 / 2 ≤ f x)
    (m1 : |∫ x in (μ - 6 * σ)..(μ + 6 * σ), (x - μ) * f x| ≤ σ ^ 2 / 10000)
    (m2 : |∫ x in (μ - 6 * σ)..(μ + 6 * σ), ((x - μ) ^ 2 - σ ^ 2) * f x| ≤ σ ^ 3 / 1000) :
    HasMoments ((linspace (μ - 6 * σ) (μ + 6 * σ) 1000).map (fun e => (e, c * f e))) μ σ := by
  obtain ⟨l, hl⟩ : ∃ l, l = (linspace (μ - 6 * σ) (μ + 6 * σ) 1000).map (fun e => (e, c * f e)) := ⟨_, rfl⟩
  rw [← hl]
  have hab : μ - 6 * σ < μ + 6 * σ := by linarith
  have hs : l.Pairwise (fun p q => p.1 < q.1) := by
    rw [hl, List.pairwise_map]
    exact linspace_sorted _ _ _ hab (by norm_num)
  have key : ∀ (φ ψ : ℝ → ℝ), Continuous φ → Continuous ψ →
      (∀ x ∈ Set.Icc (μ - 6 * σ) (μ + 6 * σ), |φ x| ≤ ψ x) →
      |moment φ l - c * ∫ x in (μ - 6 * σ)..(μ + 6 * σ), φ x * f x| ≤
        c * (72145 / 1000000000 * ∫ x in (μ - 6 * σ)..(μ + 6 * σ), ψ x) := by
    intro φ ψ hφ hψ hW
    have := moment_grid f f' f'' φ ψ _ _ c (4 / σ ^ 2) 999 (by norm_num) hab hc h1 h2 hK hφ hψ hW
    rw [show (999 + 1 : ℕ) = 1000 by norm_num, ← hl] at this
    refine this.trans ?_
    have ψ0 : 0 ≤ ∫ x in (μ - 6 * σ)..(μ + 6 * σ), ψ x :=
      intervalIntegral.integral_nonneg hab.le (fun x hx => (abs_nonneg _).trans (hW x hx))
    have e : 4 / σ ^ 2 * ((μ + 6 * σ - (μ - 6 * σ)) / (999 : ℕ)) ^ 2 / 8 = 72 / 998001 := by
      rw [show μ + 6 * σ - (μ - 6 * σ) = 12 * σ by ring]
      push_cast
      field_simp; norm_num
    rw [e]
    have num : (72 / 998001 : ℝ) ≤ 72145 / 1000000000 := by norm_num
    exact mul_le_mul_of_nonneg_left (mul_le_mul_of_nonneg_right num ψ0) hc.le
  -- the three moments
  have k0 := key (fun _ => 1) (fun x => 0 * (x - μ) ^ 2 + 1) (by fun_prop) (by fun_prop) (by intro x _; simp)
  have k1 := key (fun x => x - μ) (fun x => 1 / (7 * σ) * (x - μ) ^ 2 + 7 / 4 * σ) (by fun_prop) (by fun_prop)
    (by
      intro x _
      rw [abs_le]
      have e : 1 / (7 * σ) * (x - μ) ^ 2 + 7 / 4 * σ - (x - μ) =
        (2 * (x - μ) - 7 * σ) ^ 2 / (28 * σ) := by field_simp; ring
      have e' : 1 / (7 * σ) * (x - μ) ^ 2 + 7 / 4 * σ + (x - μ) =
        (2 * (x - μ) + 7 * σ) ^ 2 / (28 * σ) := by field_simp; ring
      have a : 0 ≤ (2 * (x - μ) - 7 * σ) ^ 2 / (28 * σ) := by positivity
      have b : 0 ≤ (2 * (x - μ) + 7 * σ) ^ 2 / (28 * σ) := by positivity
      constructor <;> linarith)
  have k2 := key (fun x => (x - μ) ^ 2 - σ ^ 2) (fun x => 1 * (x - μ) ^ 2 + σ ^ 2) (by fun_prop) (by fun_prop)
    (by
      intro x _
      rw [abs_le]
      constructor <;> nlinarith [sq_nonneg (x - μ), sq_nonneg σ])
  rw [integral_square] at k0 k1 k2
  have i1 : 1 / (7 * σ) * (144 * σ ^ 3) + 7 / 4 * σ * (12 * σ) = 291 / 7 * σ ^ 2 := by field_simp; ring
  rw [i1] at k1
  have i0 : σ ≤ ∫ x in (μ - 6 * σ)..(μ + 6 * σ), 1 * f x := by
    simp only [one_mul]
    have cont : ContinuousOn f (Set.Icc (μ - 6 * σ) (μ + 6 * σ)) :=
      fun x hx => (h1 x hx).continuousAt.continuousWithinAt
    have int : ∀ a b, μ - 6 * σ ≤ a → a ≤ b → b ≤ μ + 6 * σ →
        IntervalIntegrable f MeasureTheory.volume a b := by
      intro a b ha hab' hb
      apply ContinuousOn.intervalIntegrable
      rw [Set.uIcc_of_le hab']
      exact cont.mono (Set.Icc_subset_Icc ha hb)
    have j1 := int (μ - 6 * σ) (μ - σ) (by linarith) (by linarith) (by linarith)
    have j2 := int (μ - σ) (μ + σ) (by linarith) (by linarith) (by linarith)
    have j3 := int (μ + σ) (μ + 6 * σ) (by linarith) (by linarith) (by linarith)
    rw [← intervalIntegral.integral_add_adjacent_intervals j1 (j2.trans j3),
      ← intervalIntegral.integral_add_adjacent_intervals j2 j3]
    have n1 : 0 ≤ ∫ x in (μ - 6 * σ)..(μ - σ), f x :=
      intervalIntegral.integral_nonneg (by linarith) (fun x _ => h0 x)
    have n3 : 0 ≤ ∫ x in (μ + σ)..(μ + 6 * σ), f x :=
      intervalIntegral.integral_nonneg (by linarith) (fun x _ => h0 x)
    have n2 : ∫ _x in (μ - σ)..(μ + σ), (1 / 2 : ℝ) ≤ ∫ x in (μ - σ)..(μ + σ), f x :=
      intervalIntegral.integral_mono_on (by linarith) (by simp) j2 hh
    rw [intervalIntegral.integral_const, smul_eq_mul] at n2
    linarith
  have ea := area_eq_moment l hs
  obtain ⟨I, hI⟩ : ∃ I, I = ∫ x in (μ - 6 * σ)..(μ + 6 * σ), 1 * f x := ⟨_, rfl⟩
  rw [← hI] at k0 i0
  rw [← ea] at k0
  obtain ⟨A, hA⟩ : ∃ A, A = area l := ⟨_, rfl⟩
  rw [← hA] at k0
  obtain ⟨M1, hM1⟩ : ∃ M, M = moment (fun x => x - μ) l := ⟨_, rfl⟩
  rw [← hM1] at k1
  obtain ⟨M2, hM2⟩ : ∃ M, M = moment (fun x => (x - μ) ^ 2 - σ ^ 2) l := ⟨_, rfl⟩
  rw [← hM2] at k2
  have A0 : 999 / 1000 * (c * σ) ≤ A := by
    have := (abs_le.1 k0).1
    have : c * σ ≤ c * I := by gcongr
    nlinarith [mul_pos hc hσ]
  have cs : 0 < c * σ := mul_pos hc hσ
  have Ap : 0 < A := by nlinarith
  have tri : ∀ (M J δ ε : ℝ), |M - c * J| ≤ c * δ → |J| ≤ ε → |M| ≤ c * (δ + ε) := by
    intro M J δ ε h h'
    have a : |c * J| ≤ c * ε := by rw [abs_mul, abs_of_pos hc]; gcongr
    have := abs_le.1 h
    have := abs_le.1 a
    rw [abs_le]
    constructor <;> linarith
  have b1 : |M1| ≤ A * (σ / 310) := by
    refine (tri _ _ _ _ k1 m1).trans ?_
    have : 999 / 1000 * (c * σ) * (σ / 310) ≤ A * (σ / 310) := by gcongr
    nlinarith [mul_pos cs hσ]
  have b2 : |M2| ≤ A * (σ ^ 2 / 75) := by
    refine (tri _ _ _ _ k2 m2).trans ?_
    have : 999 / 1000 * (c * σ) * (σ ^ 2 / 75) ≤ A * (σ ^ 2 / 75) := by gcongr
    nlinarith [mul_pos (mul_pos cs hσ) hσ]
  -- the mean
  have first : firstMoment l = M1 + μ * A := by
    have e : firstMoment l = moment (fun x => (x - μ) + μ * 1) l := by
      unfold firstMoment moment
      congr 2
      funext p q
      congr 1
      funext x
      ring
    rw [e, moment_add _ _ (by fun_prop) (by fun_prop), moment_smul, ← ea, hA, hM1]
  have mean : tableMean l = μ + M1 / A := by
    unfold tableMean
    rw [first, ← hA]
    field_simp
    ring
  have d1 : |M1 / A| ≤ σ / 310 := by
    rw [abs_div, abs_of_pos Ap, div_le_iff₀ Ap]; linarith
  have var : tableVariance l = M2 / A + σ ^ 2 - (M1 / A) ^ 2 := by
    unfold tableVariance
    have e : (fun x => (x - tableMean l) ^ 2) = fun x => ((x - μ) ^ 2 - σ ^ 2) +
        ((-2 * (M1 / A)) * (x - μ) + (σ ^ 2 + (M1 / A) ^ 2) * 1) := by
      funext x
      rw [mean]
      ring
    rw [e, moment_add _ _ (by fun_prop) (by fun_prop), moment_add _ _ (by fun_prop) (by fun_prop),
      moment_smul (fun x => x - μ), moment_smul (fun _ => 1), ← ea, ← hA, ← hM1, ← hM2]
    field_simp
    ring
  have d2 : |M2 / A| ≤ σ ^ 2 / 75 := by
    rw [abs_div, abs_of_pos Ap, div_le_iff₀ Ap]; linarith
  have d3 : (M1 / A) ^ 2 ≤ (σ / 310) ^ 2 := by
    rw [← sq_abs (M1 / A)]
    exact pow_le_pow_left₀ (abs_nonneg _) d1 2
  have d4 : 0 ≤ (M1 / A) ^ 2 := sq_nonneg _
  refine ⟨?_, deviation_of σ _ _ _ hσ var d2 d3 d4⟩
  rw [mean, show μ + M1 / A - μ = M1 / A by ring]
  exact d1.trans (by linarith)

end TNS
