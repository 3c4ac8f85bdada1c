import Mathlib.Analysis.SpecialFunctions.Sqrt
import Mathlib.Analysis.SpecialFunctions.ExpDeriv
import Mathlib.Analysis.Complex.ExponentialBounds
import Verif.Lemmas.Bell
/-
The Gaussian and Ballabio's modified Gaussian are bells of the stated mean and width.
-/

set_option autoImplicit false
set_option linter.unusedSectionVars false

namespace TNS
open Spec

theorem gaussian_moments (μ σ c : ℝ) (hσ : 0 < σ) (hc : 0 < c) :
    HasMoments ((linspace (μ - 6 * σ) (μ + 6 * σ) 1000).map
      (fun e => (e, c * Real.exp (-(((e - μ) / σ) ^ 2 / 2))))) μ σ := by
  have d1 : ∀ x, HasDerivAt (fun x => Real.exp (-(((x - μ) / σ) ^ 2 / 2)))
      (-(x - μ) / σ ^ 2 * Real.exp (-(((x - μ) / σ) ^ 2 / 2))) x := by
    intro x
    have := (((((((hasDerivAt_id x).sub_const μ).div_const σ).pow 2).div_const 2).neg)).exp
    refine this.congr_deriv ?_
    simp only [id, Pi.neg_apply, Pi.pow_apply]
    generalize Real.exp (-(((x - μ) / σ) ^ 2 / 2)) = G
    push_cast
    field_simp
  have d2 : ∀ x, HasDerivAt (fun x => -(x - μ) / σ ^ 2 * Real.exp (-(((x - μ) / σ) ^ 2 / 2)))
      ((((x - μ) / σ) ^ 2 - 1) / σ ^ 2 * Real.exp (-(((x - μ) / σ) ^ 2 / 2))) x := by
    intro x
    have := ((((hasDerivAt_id x).sub_const μ).neg).div_const (σ ^ 2)).mul (d1 x)
    refine this.congr_deriv ?_
    simp only [id]
    field_simp
    simp only [Pi.neg_apply]
    ring
  have s2 : 0 < σ ^ 2 := by positivity
  have i1 : ∫ x in (μ - 6 * σ)..(μ + 6 * σ), (x - μ) * Real.exp (-(((x - μ) / σ) ^ 2 / 2)) = 0 := by
    have : ∀ x ∈ Set.uIcc (μ - 6 * σ) (μ + 6 * σ), HasDerivAt
        (fun x => -σ ^ 2 * Real.exp (-(((x - μ) / σ) ^ 2 / 2)))
        ((x - μ) * Real.exp (-(((x - μ) / σ) ^ 2 / 2))) x := by
      intro x _
      refine ((d1 x).const_mul (-σ ^ 2)).congr_deriv ?_
      field_simp
    rw [intervalIntegral.integral_eq_sub_of_hasDerivAt this (by
      apply Continuous.intervalIntegrable; fun_prop)]
    have e : ((μ + 6 * σ - μ) / σ) ^ 2 = ((μ - 6 * σ - μ) / σ) ^ 2 := by field_simp; ring
    rw [e]; ring
  have i2 : ∫ x in (μ - 6 * σ)..(μ + 6 * σ), ((x - μ) ^ 2 - σ ^ 2) * Real.exp (-(((x - μ) / σ) ^ 2 / 2)) =
      -12 * σ ^ 3 * Real.exp (-18) := by
    have : ∀ x ∈ Set.uIcc (μ - 6 * σ) (μ + 6 * σ), HasDerivAt
        (fun x => -σ ^ 2 * ((x - μ) * Real.exp (-(((x - μ) / σ) ^ 2 / 2))))
        (((x - μ) ^ 2 - σ ^ 2) * Real.exp (-(((x - μ) / σ) ^ 2 / 2))) x := by
      intro x _
      refine ((((hasDerivAt_id x).sub_const μ).mul (d1 x)).const_mul (-σ ^ 2)).congr_deriv ?_
      simp only [id]
      field_simp
      ring
    rw [intervalIntegral.integral_eq_sub_of_hasDerivAt this (by
      apply Continuous.intervalIntegrable; fun_prop)]
    have e : ((μ + 6 * σ - μ) / σ) ^ 2 / 2 = 18 := by field_simp; ring
    have e' : ((μ - 6 * σ - μ) / σ) ^ 2 / 2 = 18 := by field_simp; ring
    rw [e, e']; ring
  refine bell_moments _ _ _ μ σ c hσ hc (fun x _ => d1 x) (fun x _ => d2 x) ?_
    (fun x => (Real.exp_pos _).le) ?_ ?_ ?_
  · intro x _
    rw [abs_mul, abs_of_pos (Real.exp_pos _), abs_div, abs_of_pos s2]
    obtain ⟨u, hu⟩ : ∃ u, u = ((x - μ) / σ) ^ 2 := ⟨_, rfl⟩
    rw [← hu]
    have u0 : 0 ≤ u := hu ▸ sq_nonneg _
    have a := Real.add_one_le_exp (u / 2)
    have p := Real.exp_pos (-(u / 2))
    have pp : Real.exp (u / 2) * Real.exp (-(u / 2)) = 1 := by rw [← Real.exp_add]; simp
    have b : |u - 1| ≤ 2 * Real.exp (u / 2) := by rw [abs_le]; constructor <;> linarith
    calc |u - 1| / σ ^ 2 * Real.exp (-(u / 2)) ≤ 2 * Real.exp (u / 2) / σ ^ 2 * Real.exp (-(u / 2)) := by gcongr
      _ = 2 * (Real.exp (u / 2) * Real.exp (-(u / 2))) / σ ^ 2 := by ring
      _ = 2 / σ ^ 2 := by rw [pp, mul_one]
      _ ≤ 4 / σ ^ 2 := by gcongr; norm_num
  · intro x hx
    have : ((x - μ) / σ) ^ 2 ≤ 1 := by
      rw [sq_le_one_iff_abs_le_one, abs_div, abs_of_pos hσ, div_le_one hσ, abs_le]
      constructor <;> linarith [hx.1, hx.2]
    have a := Real.add_one_le_exp (-(((x - μ) / σ) ^ 2 / 2))
    linarith
  · rw [i1]; simp; positivity
  · rw [i2]
    have h18 : Real.exp (-18) ≤ 1 / 12000 := by
      rw [Real.exp_neg, inv_le_comm₀ (Real.exp_pos _) (by norm_num)]
      have a := Real.add_one_le_exp 1
      have : Real.exp 18 = Real.exp 1 ^ 18 := by rw [← Real.exp_nat_mul]; norm_num
      rw [this]
      calc ((1 / 12000 : ℝ))⁻¹ ≤ (1 + 1) ^ 18 := by norm_num
        _ ≤ Real.exp 1 ^ 18 := by gcongr
    have p := Real.exp_pos (-18)
    rw [abs_mul, abs_mul, abs_of_pos p, abs_of_pos (show 0 < σ ^ 3 by positivity)]
    norm_num
    nlinarith [show 0 < σ ^ 3 by positivity]

/-- The modified Gaussian in terms of its mode and its width in the square root of the energy. -/
theorem modified_params (μ σ : ℝ) (hσ : 0 < σ) (h10 : 10 * σ ≤ μ) : ∃ m v : ℝ, 0 < m ∧ 0 < v ∧
    (∀ e, modifiedGaussian μ σ e = Real.exp (-((Real.sqrt e - m) ^ 2 / (2 * v)))) ∧
    μ = m ^ 2 + 3 * v ∧ σ ^ 2 = 4 * m ^ 2 * v + 6 * v ^ 2 ∧ 3.98 * v * μ ≤ σ ^ 2 ∧ σ ^ 2 ≤ 4 * v * μ ∧
    99 / 100 * μ ≤ m ^ 2 := by
  have hμ : 0 < μ := by linarith
  have hr : σ ^ 2 / μ ^ 2 ≤ 1 / 100 := by
    rw [div_le_div_iff₀ (by positivity) (by norm_num)]; nlinarith
  have hr0 : 0 < σ ^ 2 / μ ^ 2 := by positivity
  obtain ⟨g, hg⟩ : ∃ g, g = Real.sqrt (1 - 3 / 2 * (σ ^ 2 / μ ^ 2)) := ⟨_, rfl⟩
  have gg : g ^ 2 = 1 - 3 / 2 * (σ ^ 2 / μ ^ 2) := by rw [hg, Real.sq_sqrt (by linarith)]
  have g1 : 99 / 100 ≤ g := by rw [hg]; apply Real.le_sqrt_of_sq_le; norm_num; linarith
  have g2 : g < 1 := by nlinarith
  have sg : σ ^ 2 = 2 / 3 * μ ^ 2 * (1 - g ^ 2) := by rw [gg]; field_simp; ring
  have m0 : 0 ≤ μ * g := by positivity
  have mm : Real.sqrt (μ * g) ^ 2 = μ * g := Real.sq_sqrt m0
  have v0 : 0 < μ * (1 - g) / 3 := by
    have : 0 < 1 - g := by linarith
    positivity
  refine ⟨Real.sqrt (μ * g), μ * (1 - g) / 3, Real.sqrt_pos.2 (by positivity), v0, ?_, ?_, ?_, ?_, ?_, ?_⟩
  · intro e
    unfold modifiedGaussian
    simp only
    rw [← hg, ← gg]
    congr 1
    have : (1 - g) ≠ 0 := by linarith
    have : g - g ^ 2 ≠ 0 := by nlinarith
    field_simp
    ring
  · rw [mm]; ring
  · rw [mm, sg]; ring
  · rw [sg]
    have : 0 ≤ μ ^ 2 * (1 - g) := by
      have : 0 < 1 - g := by linarith
      positivity
    nlinarith
  · rw [sg]
    have : 0 ≤ μ ^ 2 * (1 - g) := by
      have : 0 < 1 - g := by linarith
      positivity
    nlinarith
  · rw [mm]; nlinarith

section
variable (m v : ℝ)

/-- Gaussian in the square root of the energy. -/
noncomputable def rootBell (e : ℝ) : ℝ := Real.exp (-((Real.sqrt e - m) ^ 2 / (2 * v)))

theorem rootBell_deriv (hv : 0 < v) (e : ℝ) (he : 0 < e) :
    HasDerivAt (rootBell m v) (-(Real.sqrt e - m) / (2 * v * Real.sqrt e) * rootBell m v e) e := by
  have s := Real.hasDerivAt_sqrt he.ne'
  have s0 : Real.sqrt e ≠ 0 := (Real.sqrt_pos.2 he).ne'
  have := ((((s.sub_const m).pow 2).div_const (2 * v)).neg).exp
  refine this.congr_deriv ?_
  unfold rootBell
  simp
  field_simp
  ring

theorem rootBell_deriv2 (hv : 0 < v) (e : ℝ) (he : 0 < e) :
    HasDerivAt (fun e => -(Real.sqrt e - m) / (2 * v * Real.sqrt e) * rootBell m v e)
      (((Real.sqrt e - m) ^ 2 / v - m / Real.sqrt e) / (4 * v * e) * rootBell m v e) e := by
  have s := Real.hasDerivAt_sqrt he.ne'
  have s0 : Real.sqrt e ≠ 0 := (Real.sqrt_pos.2 he).ne'
  have ee : Real.sqrt e ^ 2 = e := Real.sq_sqrt he.le
  have := (((s.sub_const m).neg).div (s.const_mul (2 * v)) (by positivity)).mul (rootBell_deriv m v hv e he)
  refine this.congr_deriv ?_
  simp only [Pi.div_apply, Pi.neg_apply]
  rw [show 4 * v * e = 4 * v * Real.sqrt e ^ 2 by rw [ee]]
  field_simp
  ring

theorem rootBell_int1 (hv : 0 < v) (a b : ℝ) (ha : 0 < a) (hab : a ≤ b) :
    ∫ x in a..b, (x - (m ^ 2 + 3 * v)) * rootBell m v x =
      -v * (2 * b + 2 * m * Real.sqrt b - 2 * v) * rootBell m v b -
      -v * (2 * a + 2 * m * Real.sqrt a - 2 * v) * rootBell m v a := by
  have : ∀ x ∈ Set.uIcc a b, HasDerivAt
      (fun x => -v * (2 * x + 2 * m * Real.sqrt x - 2 * v) * rootBell m v x)
      ((x - (m ^ 2 + 3 * v)) * rootBell m v x) x := by
    intro x hx
    rw [Set.uIcc_of_le hab] at hx
    have x0 : 0 < x := by linarith [hx.1]
    have s := Real.hasDerivAt_sqrt x0.ne'
    have s0 : Real.sqrt x ≠ 0 := (Real.sqrt_pos.2 x0).ne'
    have ee : Real.sqrt x ^ 2 = x := Real.sq_sqrt x0.le
    have := (((((hasDerivAt_id x).const_mul 2).add (s.const_mul (2 * m))).sub_const (2 * v)).const_mul
      (-v)).mul (rootBell_deriv m v hv x x0)
    refine this.congr_deriv ?_
    simp only [id, Pi.add_apply]
    generalize rootBell m v x = G
    generalize Real.sqrt x = y at *
    subst ee
    field_simp
    ring
  rw [intervalIntegral.integral_eq_sub_of_hasDerivAt this]
  apply ContinuousOn.intervalIntegrable
  rw [Set.uIcc_of_le hab]
  intro x hx
  exact (Continuous.continuousWithinAt (by fun_prop)).mul
    (rootBell_deriv m v hv x (by linarith [hx.1])).continuousAt.continuousWithinAt

theorem rootBell_int2 (hv : 0 < v) (a b : ℝ) (ha : 0 < a) (hab : a ≤ b) :
    ∫ x in a..b, ((x - (m ^ 2 + 3 * v)) ^ 2 - (4 * m ^ 2 * v + 6 * v ^ 2)) * rootBell m v x =
      -v * ((2 * b + 2 * m * Real.sqrt b) * (b - m ^ 2) - 4 * v * b + 2 * m * v * Real.sqrt b +
        2 * m ^ 2 * v - 2 * v ^ 2) * rootBell m v b -
      -v * ((2 * a + 2 * m * Real.sqrt a) * (a - m ^ 2) - 4 * v * a + 2 * m * v * Real.sqrt a +
        2 * m ^ 2 * v - 2 * v ^ 2) * rootBell m v a := by
  have : ∀ x ∈ Set.uIcc a b, HasDerivAt
      (fun x => -v * ((2 * x + 2 * m * Real.sqrt x) * (x - m ^ 2) - 4 * v * x + 2 * m * v * Real.sqrt x +
        2 * m ^ 2 * v - 2 * v ^ 2) * rootBell m v x)
      (((x - (m ^ 2 + 3 * v)) ^ 2 - (4 * m ^ 2 * v + 6 * v ^ 2)) * rootBell m v x) x := by
    intro x hx
    rw [Set.uIcc_of_le hab] at hx
    have x0 : 0 < x := by linarith [hx.1]
    have s := Real.hasDerivAt_sqrt x0.ne'
    have s0 : Real.sqrt x ≠ 0 := (Real.sqrt_pos.2 x0).ne'
    have ee : Real.sqrt x ^ 2 = x := Real.sq_sqrt x0.le
    have i := hasDerivAt_id x
    have := ((((((((i.const_mul 2).add (s.const_mul (2 * m))).mul (i.sub_const (m ^ 2))).sub
      (i.const_mul (4 * v))).add (s.const_mul (2 * m * v))).add_const (2 * m ^ 2 * v)).sub_const
      (2 * v ^ 2)).const_mul (-v)).mul (rootBell_deriv m v hv x x0)
    refine this.congr_deriv ?_
    simp only [id, Pi.add_apply, Pi.mul_apply, Pi.sub_apply]
    generalize rootBell m v x = G
    generalize Real.sqrt x = y at *
    subst ee
    field_simp
    ring
  rw [intervalIntegral.integral_eq_sub_of_hasDerivAt this]
  apply ContinuousOn.intervalIntegrable
  rw [Set.uIcc_of_le hab]
  intro x hx
  exact (Continuous.continuousWithinAt (by fun_prop)).mul
    (rootBell_deriv m v hv x (by linarith [hx.1])).continuousAt.continuousWithinAt

end

theorem exp_neg13 (x : ℝ) (h : 13 ≤ x) : Real.exp (-x) ≤ 1 / 400000 := by
  have a : Real.exp (-x) ≤ Real.exp (-13) := Real.exp_le_exp.2 (by linarith)
  refine a.trans ?_
  rw [Real.exp_neg, inv_le_comm₀ (Real.exp_pos _) (by norm_num)]
  have a := Real.exp_one_gt_d9
  have : Real.exp 13 = Real.exp 1 ^ 13 := by rw [← Real.exp_nat_mul]; norm_num
  rw [this]
  calc ((1 / 400000 : ℝ))⁻¹ ≤ (2.7 : ℝ) ^ 13 := by norm_num
    _ ≤ Real.exp 1 ^ 13 := by gcongr; linarith

set_option maxHeartbeats 1600000 in
theorem modified_moments (μ σ c : ℝ) (hσ : 0 < σ) (h10 : 10 * σ ≤ μ) (hc : 0 < c) :
    HasMoments ((linspace (μ - 6 * σ) (μ + 6 * σ) 1000).map
      (fun e => (e, c * modifiedGaussian μ σ e))) μ σ := by
  obtain ⟨m, v, m0, v0, hG, hμ, hs, hv1, hv2, hm⟩ := modified_params μ σ hσ h10
  have μ0 : 0 < μ := by linarith
  have eG : modifiedGaussian μ σ = rootBell m v := by funext e; rw [hG]; rfl
  rw [eG]
  have m2 : m ^ 2 ≤ μ := by linarith
  have v3 : 3 * v ≤ 8 / 100 * σ := by
    have : 3.98 * v * μ ≤ (1 / 10 * σ) * μ := by nlinarith
    have := le_of_mul_le_mul_right this μ0
    norm_num at this
    linarith
  have s2 : 0 < σ ^ 2 := by positivity
  -- facts on the square root
  have root : ∀ x, 0 < x → 0 < Real.sqrt x ∧ Real.sqrt x ^ 2 = x :=
    fun x hx => ⟨Real.sqrt_pos.2 hx, Real.sq_sqrt hx.le⟩
  have expo : ∀ y k : ℝ, 0 < y → |y ^ 2 - m ^ 2| ≥ k → 0 ≤ k → (y - m) ^ 2 * (y + m) ^ 2 ≥ k ^ 2 := by
    intro y k _ h k0
    have : (y - m) ^ 2 * (y + m) ^ 2 = |y ^ 2 - m ^ 2| ^ 2 := by rw [sq_abs]; ring
    rw [this]
    gcongr
  have edge : ∀ x, x = μ - 6 * σ ∨ x = μ + 6 * σ → 0 ≤ rootBell m v x ∧ rootBell m v x ≤ 1 / 400000 := by
    intro x hx
    have x0 : 0 < x := by rcases hx with h | h <;> rw [h] <;> linarith
    obtain ⟨y0, yy⟩ := root x x0
    refine ⟨(Real.exp_pos _).le, exp_neg13 _ ?_⟩
    obtain ⟨y, hy⟩ : ∃ y, y = Real.sqrt x := ⟨_, rfl⟩
    rw [← hy] at y0 yy ⊢
    rw [le_div_iff₀ (by positivity)]
    rcases hx with h | h
    · have e1 := expo y (59 / 10 * σ) y0 (by rw [yy, h, abs_of_nonpos (by linarith)]; linarith)
        (by positivity)
      have e2 : (y + m) ^ 2 ≤ 4 * μ := by nlinarith [sq_nonneg (y - m)]
      have e3 : (y - m) ^ 2 * (4 * μ) ≥ (59 / 10 * σ) ^ 2 :=
        e1.le.trans (mul_le_mul_of_nonneg_left e2 (sq_nonneg _))
      have e4 : 13 * (2 * v) * (4 * μ) ≤ (y - m) ^ 2 * (4 * μ) := by nlinarith
      exact le_of_mul_le_mul_right e4 (by positivity)
    · have e1 := expo y (6 * σ) y0 (by rw [yy, h, abs_of_nonneg (by linarith)]; linarith)
        (by positivity)
      have e2 : (y + m) ^ 2 ≤ 5.14 * μ := by
        have : y ^ 2 ≤ 1.6 * μ := by rw [yy, h]; linarith
        nlinarith [sq_nonneg (0.79 * y - m)]
      have e3 : (y - m) ^ 2 * (5.14 * μ) ≥ (6 * σ) ^ 2 :=
        e1.le.trans (mul_le_mul_of_nonneg_left e2 (sq_nonneg _))
      have e4 : 13 * (2 * v) * (5.14 * μ) ≤ (y - m) ^ 2 * (5.14 * μ) := by nlinarith
      exact le_of_mul_le_mul_right e4 (by positivity)
  have rng : ∀ x, μ - 6 * σ ≤ x → x ≤ μ + 6 * σ → 4 / 10 * μ ≤ x ∧ x ≤ 16 / 10 * μ ∧ 0 < x := by
    intro x a b
    refine ⟨by linarith, by linarith, by linarith⟩
  have pre : ∀ x, μ - 6 * σ ≤ x → x ≤ μ + 6 * σ → 0 ≤ 2 * x + 2 * m * Real.sqrt x ∧
      2 * x + 2 * m * Real.sqrt x ≤ 58 / 10 * μ ∧ 0 ≤ 2 * m * Real.sqrt x := by
    intro x a b
    obtain ⟨r1, r2, r3⟩ := rng x a b
    obtain ⟨y0, yy⟩ := root x r3
    have p : 0 ≤ 2 * m * Real.sqrt x := by positivity
    refine ⟨by linarith, ?_, p⟩
    nlinarith [sq_nonneg (m - Real.sqrt x)]
  have b1 : ∀ x, x = μ - 6 * σ ∨ x = μ + 6 * σ →
      |-v * (2 * x + 2 * m * Real.sqrt x - 2 * v) * rootBell m v x| ≤ σ ^ 2 / 20000 := by
    intro x hx
    obtain ⟨g0, g1⟩ := edge x hx
    obtain ⟨p1, p2, p3⟩ := pre x (by rcases hx with h | h <;> rw [h] <;> linarith)
      (by rcases hx with h | h <;> rw [h] <;> linarith)
    have a : |2 * x + 2 * m * Real.sqrt x - 2 * v| ≤ 6 * μ := by
      rw [abs_le]; constructor <;> linarith
    rw [abs_mul, abs_mul, abs_of_nonneg g0, abs_neg, abs_of_pos v0]
    calc v * |2 * x + 2 * m * Real.sqrt x - 2 * v| * rootBell m v x ≤ v * (6 * μ) * (1 / 400000) := by
          gcongr
      _ ≤ σ ^ 2 / 20000 := by nlinarith
  have b2 : ∀ x, x = μ - 6 * σ ∨ x = μ + 6 * σ →
      |-v * ((2 * x + 2 * m * Real.sqrt x) * (x - m ^ 2) - 4 * v * x + 2 * m * v * Real.sqrt x +
        2 * m ^ 2 * v - 2 * v ^ 2) * rootBell m v x| ≤ σ ^ 3 / 2000 := by
    intro x hx
    obtain ⟨g0, g1⟩ := edge x hx
    have xa : μ - 6 * σ ≤ x := by rcases hx with h | h <;> rw [h] <;> linarith
    have xb : x ≤ μ + 6 * σ := by rcases hx with h | h <;> rw [h] <;> linarith
    obtain ⟨p1, p2, p3⟩ := pre x xa xb
    obtain ⟨r1, r2, r3⟩ := rng x xa xb
    have a1 : |x - m ^ 2| ≤ 61 / 10 * σ := by
      rw [abs_le]; constructor <;> linarith
    have a2 : |(2 * x + 2 * m * Real.sqrt x) * (x - m ^ 2)| ≤ 58 / 10 * μ * (61 / 10 * σ) := by
      rw [abs_mul, abs_of_nonneg p1]; gcongr
    have a3 : |-4 * x + 2 * m * Real.sqrt x + 2 * m ^ 2 - 2 * v| ≤ 15 * μ := by
      rw [abs_le]; constructor <;> nlinarith
    have a4 : |v * (-4 * x + 2 * m * Real.sqrt x + 2 * m ^ 2 - 2 * v)| ≤ 1 / 10 * σ * (15 * μ) := by
      rw [abs_mul, abs_of_pos v0]; gcongr; linarith
    have a5 : |(2 * x + 2 * m * Real.sqrt x) * (x - m ^ 2) - 4 * v * x + 2 * m * v * Real.sqrt x +
        2 * m ^ 2 * v - 2 * v ^ 2| ≤ 40 * μ * σ := by
      have e : (2 * x + 2 * m * Real.sqrt x) * (x - m ^ 2) - 4 * v * x + 2 * m * v * Real.sqrt x +
        2 * m ^ 2 * v - 2 * v ^ 2 = (2 * x + 2 * m * Real.sqrt x) * (x - m ^ 2) +
        v * (-4 * x + 2 * m * Real.sqrt x + 2 * m ^ 2 - 2 * v) := by ring
      rw [e]
      refine (abs_add_le _ _).trans ?_
      nlinarith [mul_pos μ0 hσ]
    rw [abs_mul, abs_mul, abs_of_nonneg g0, abs_neg, abs_of_pos v0]
    calc v * |(2 * x + 2 * m * Real.sqrt x) * (x - m ^ 2) - 4 * v * x + 2 * m * v * Real.sqrt x +
        2 * m ^ 2 * v - 2 * v ^ 2| * rootBell m v x ≤ v * (40 * μ * σ) * (1 / 400000) := by gcongr
      _ = v * μ * (σ / 10000) := by ring
      _ ≤ σ ^ 2 * (σ / 10000) := by gcongr; nlinarith
      _ ≤ σ ^ 3 / 2000 := by nlinarith [show 0 < σ ^ 3 by positivity]
  have pos : ∀ x ∈ Set.Icc (μ - 6 * σ) (μ + 6 * σ), 0 < x := fun x hx => (rng x hx.1 hx.2).2.2
  refine bell_moments _ _ _ μ σ c hσ hc (fun x hx => rootBell_deriv m v v0 x (pos x hx))
    (fun x hx => rootBell_deriv2 m v v0 x (pos x hx)) ?_ (fun x => (Real.exp_pos _).le) ?_ ?_ ?_
  · intro x hx
    obtain ⟨r1, r2, r3⟩ := rng x hx.1 hx.2
    obtain ⟨y0, yy⟩ := root x r3
    obtain ⟨y, hy⟩ : ∃ y, y = Real.sqrt x := ⟨_, rfl⟩
    unfold rootBell
    rw [← hy] at y0 yy ⊢
    obtain ⟨w, hw⟩ : ∃ w, w = (y - m) ^ 2 / (2 * v) := ⟨_, rfl⟩
    have w0 : 0 ≤ w := by rw [hw]; positivity
    have ew : (y - m) ^ 2 / v = 2 * w := by rw [hw]; field_simp
    rw [← hw, ew]
    have p := Real.exp_pos (-w)
    have k1 : w * Real.exp (-w) ≤ 2 / 5 := by
      have a := Real.add_one_le_exp (w - 1)
      have b : Real.exp (w - 1) * Real.exp (-w) = Real.exp (-1) := by rw [← Real.exp_add]; congr 1; ring
      have c' : Real.exp (-1) ≤ 2 / 5 := by
        rw [Real.exp_neg, inv_le_comm₀ (Real.exp_pos _) (by norm_num)]
        have := Real.exp_one_gt_d9
        norm_num at this ⊢; linarith
      nlinarith
    have k2 : Real.exp (-w) ≤ 1 := by rw [Real.exp_le_one_iff]; linarith
    have k3 : m / y ≤ 16 / 10 := by
      rw [div_le_iff₀ y0]
      apply le_of_sq_le_sq _ (by positivity)
      nlinarith
    have k4 : 0 ≤ m / y := by positivity
    have k5 : |2 * w - m / y| * Real.exp (-w) ≤ 16 / 10 := by
      have q : |2 * w - m / y| * Real.exp (-w) = |(2 * w - m / y) * Real.exp (-w)| := by
        rw [abs_mul, abs_of_pos p]
      rw [q, abs_le]
      constructor <;> nlinarith
    have k6 : 0 < 4 * v * x := by positivity
    rw [abs_mul, abs_of_pos p, abs_div, abs_of_pos k6, div_mul_eq_mul_div, div_le_div_iff₀ k6 s2]
    calc |2 * w - m / y| * Real.exp (-w) * σ ^ 2 ≤ 16 / 10 * (4 * v * μ) := by gcongr
      _ = 4 * (4 * v * (4 / 10 * μ)) := by ring
      _ ≤ 4 * (4 * v * x) := by gcongr
  · intro x hx
    have xa := hx.1
    have xb := hx.2
    have x0 : 0 < x := by linarith
    obtain ⟨y0, yy⟩ := root x x0
    obtain ⟨y, hy⟩ : ∃ y, y = Real.sqrt x := ⟨_, rfl⟩
    unfold rootBell
    rw [← hy] at y0 yy ⊢
    have a1 : |y ^ 2 - m ^ 2| ≤ 108 / 100 * σ := by
      rw [yy, abs_le]; constructor <;> linarith
    have a2 : (y - m) ^ 2 * (y + m) ^ 2 ≤ (108 / 100 * σ) ^ 2 := by
      have : (y - m) ^ 2 * (y + m) ^ 2 = |y ^ 2 - m ^ 2| ^ 2 := by rw [sq_abs]; ring
      rw [this]
      gcongr
    have a3 : 94 / 100 * μ ≤ y * m := by
      apply le_of_sq_le_sq _ (by positivity)
      rw [mul_pow y m, yy]
      have : 9 / 10 * μ ≤ x := by linarith
      calc (94 / 100 * μ) ^ 2 ≤ (9 / 10 * μ) * (99 / 100 * μ) := by nlinarith
        _ ≤ x * m ^ 2 := by gcongr
    have a4 : 377 / 100 * μ ≤ (y + m) ^ 2 := by nlinarith
    have a5 : (y - m) ^ 2 * (377 / 100 * μ) ≤ (108 / 100 * σ) ^ 2 :=
      (mul_le_mul_of_nonneg_left a4 (sq_nonneg _)).trans a2
    have a6 : (y - m) ^ 2 / (2 * v) ≤ 62 / 100 := by
      rw [div_le_iff₀ (by positivity)]
      have : (y - m) ^ 2 * (377 / 100 * μ) ≤ 62 / 100 * (2 * v) * (377 / 100 * μ) := by nlinarith
      exact le_of_mul_le_mul_right this (by positivity)
    have a7 : Real.exp (-(69 / 100)) ≤ Real.exp (-((y - m) ^ 2 / (2 * v))) := by
      apply Real.exp_le_exp.2; linarith
    refine le_trans ?_ a7
    rw [← Real.log_le_iff_le_exp (by norm_num), one_div, Real.log_inv]
    have := Real.log_two_gt_d9
    norm_num at this ⊢
    linarith
  · have := rootBell_int1 m v v0 (μ - 6 * σ) (μ + 6 * σ) (by linarith) (by linarith)
    rw [← hμ] at this
    rw [this]
    refine (abs_sub _ _).trans ?_
    have := b1 _ (Or.inl rfl)
    have := b1 _ (Or.inr rfl)
    linarith
  · have := rootBell_int2 m v v0 (μ - 6 * σ) (μ + 6 * σ) (by linarith) (by linarith)
    rw [← hμ, ← hs] at this
    rw [this]
    refine (abs_sub _ _).trans ?_
    have := b2 _ (Or.inl rfl)
    have := b2 _ (Or.inr rfl)
    linarith

end TNS
