import Mathlib.Analysis.SpecialFunctions.ExpDeriv
import Mathlib.Analysis.SpecialFunctions.Exponential
import Mathlib.Analysis.SpecialFunctions.Pow.Deriv
import Mathlib.Analysis.Calculus.Deriv.MeanValue
import Mathlib.Analysis.Complex.ExponentialBounds
import Mathlib.Algebra.BigOperators.Field
import Mathlib.Tactic.Linarith
import Mathlib.Tactic.Positivity
import Mathlib.Tactic.FieldSimp
/-
The trapezoidal Maxwell average of a cross section rises with the temperature: the energies are
weighted on average above `3/2 kT`.
-/

set_option autoImplicit false

namespace TNS
open Set

/-- One cell of the energy grid: `∫ x² exp(-x/t)` from below. -/
theorem cell_sq (a b t ρ : ℝ) (ha : 0 < a) (hab : a ≤ b) (hb : b ≤ ρ * a) (ht : 0 < t) (hρ : 1 ≤ ρ) :
    (-(b ^ 2 / (ρ / t) + 2 * b / (ρ / t) ^ 2 + 2 / (ρ / t) ^ 3) * Real.exp (-(ρ / t) * b) -
      -(a ^ 2 / (ρ / t) + 2 * a / (ρ / t) ^ 2 + 2 / (ρ / t) ^ 3) * Real.exp (-(ρ / t) * a)) / ρ ^ 2 ≤
    (b - a) * ((a ^ 2 * Real.exp (-a / t) + b ^ 2 * Real.exp (-b / t)) / 2) := by
  have hρ0 : 0 < ρ := by linarith
  set α := ρ / t with hα
  have hα0 : 0 < α := by positivity
  have hd : ∀ x : ℝ, HasDerivAt (fun x : ℝ => -(x ^ 2 / α + 2 * x / α ^ 2 + 2 / α ^ 3) *
      Real.exp (-α * x)) (x ^ 2 * Real.exp (-α * x)) x := by
    intro x
    have h1 : HasDerivAt (fun x : ℝ => -(x ^ 2 / α + 2 * x / α ^ 2 + 2 / α ^ 3))
        (-(2 * x / α + 2 / α ^ 2)) x := by
      have := ((((hasDerivAt_pow 2 x).div_const α).add
        (((hasDerivAt_id x).const_mul 2).div_const (α ^ 2))).add_const (2 / α ^ 3)).neg
      refine this.congr_deriv ?_
      simp
    have h2 : HasDerivAt (fun x : ℝ => Real.exp (-α * x)) (Real.exp (-α * x) * (-α)) x := by
      have := ((hasDerivAt_id x).const_mul (-α)).exp
      simpa using this
    refine (h1.mul h2).congr_deriv ?_
    field_simp
    ring
  have hm := Convex.image_sub_le_mul_sub_of_deriv_le (D := Icc a b) (convex_Icc a b)
    (f := fun x : ℝ => -(x ^ 2 / α + 2 * x / α ^ 2 + 2 / α ^ 3) * Real.exp (-α * x))
    (fun x _ => (hd x).continuousAt.continuousWithinAt)
    (fun x _ => (hd x).differentiableAt.differentiableWithinAt)
    (C := ρ ^ 2 * a ^ 2 * Real.exp (-b / t)) (by
      intro x hx
      have hx := interior_subset hx
      rw [(hd x).deriv]
      have hx0 : 0 < x := lt_of_lt_of_le ha hx.1
      have e1 : x ^ 2 ≤ ρ ^ 2 * a ^ 2 := by
        rw [← mul_pow]
        exact pow_le_pow_left₀ hx0.le (hx.2.trans hb) 2
      have e2 : Real.exp (-α * x) ≤ Real.exp (-b / t) := by
        apply Real.exp_le_exp.2
        rw [hα, neg_mul, neg_div, neg_le_neg_iff, div_mul_eq_mul_div]
        refine div_le_div_of_nonneg_right (hb.trans ?_) ht.le
        exact mul_le_mul_of_nonneg_left hx.1 hρ0.le
      exact mul_le_mul e1 e2 (Real.exp_pos _).le (by positivity))
    a (left_mem_Icc.2 hab) b (right_mem_Icc.2 hab) hab
  rw [div_le_iff₀ (by positivity)]
  refine hm.trans ?_
  have e3 : Real.exp (-b / t) ≤ Real.exp (-a / t) := by
    apply Real.exp_le_exp.2
    exact div_le_div_of_nonneg_right (by linarith) ht.le
  have e4 : a ^ 2 ≤ b ^ 2 := pow_le_pow_left₀ ha.le hab 2
  have e5 : a ^ 2 * Real.exp (-b / t) ≤
      (a ^ 2 * Real.exp (-a / t) + b ^ 2 * Real.exp (-b / t)) / 2 := by
    have h1 := mul_le_mul_of_nonneg_left e3 (by positivity : 0 ≤ a ^ 2)
    have h2 := mul_le_mul_of_nonneg_right e4 (Real.exp_pos (-b / t)).le
    linarith
  have := mul_le_mul_of_nonneg_left e5 (by nlinarith [sub_nonneg.2 hab] : 0 ≤ (b - a) * ρ ^ 2)
  nlinarith

/-- One cell of the energy grid: `∫ x exp(-x/t)` from above. -/
theorem cell_lin (a b t ρ : ℝ) (ha : 0 < a) (hab : a ≤ b) (hb : b ≤ ρ * a) (ht : 0 < t)
    (hρ : 1 ≤ ρ) :
    (b - a) * ((a * Real.exp (-a / t) + b * Real.exp (-b / t)) / 2) ≤
    ρ * (-(b * (ρ * t) + (ρ * t) ^ 2) * Real.exp (-b / (ρ * t)) -
      -(a * (ρ * t) + (ρ * t) ^ 2) * Real.exp (-a / (ρ * t))) := by
  have hρ0 : 0 < ρ := by linarith
  set γ := ρ * t with hγ
  have hγ0 : 0 < γ := by positivity
  have hd : ∀ x : ℝ, HasDerivAt (fun x : ℝ => -(x * γ + γ ^ 2) * Real.exp (-x / γ))
      (x * Real.exp (-x / γ)) x := by
    intro x
    have h1 : HasDerivAt (fun x : ℝ => -(x * γ + γ ^ 2)) (-γ) x := by
      have := (((hasDerivAt_id x).mul_const γ).add_const (γ ^ 2)).neg
      refine this.congr_deriv ?_
      simp
    have h2 : HasDerivAt (fun x : ℝ => Real.exp (-x / γ)) (Real.exp (-x / γ) * (-1 / γ)) x :=
      (((hasDerivAt_id x).neg).div_const γ).exp
    refine (h1.mul h2).congr_deriv ?_
    field_simp
    ring
  have hm := Convex.mul_sub_le_image_sub_of_le_deriv (D := Icc a b) (convex_Icc a b)
    (f := fun x : ℝ => -(x * γ + γ ^ 2) * Real.exp (-x / γ))
    (fun x _ => (hd x).continuousAt.continuousWithinAt)
    (fun x _ => (hd x).differentiableAt.differentiableWithinAt)
    (C := b / ρ * Real.exp (-a / t)) (by
      intro x hx
      have hx := interior_subset hx
      rw [(hd x).deriv]
      have hx0 : 0 < x := lt_of_lt_of_le ha hx.1
      have e1 : b / ρ ≤ x := by
        rw [div_le_iff₀ hρ0]
        nlinarith [hx.1]
      have e2 : Real.exp (-a / t) ≤ Real.exp (-x / γ) := by
        apply Real.exp_le_exp.2
        rw [hγ, neg_div, neg_div, neg_le_neg_iff, div_le_div_iff₀ (by positivity) ht]
        nlinarith [hx.2]
      exact mul_le_mul e1 e2 (Real.exp_pos _).le hx0.le)
    a (left_mem_Icc.2 hab) b (right_mem_Icc.2 hab) hab
  have hb0 : 0 < b := lt_of_lt_of_le ha hab
  have e3 : Real.exp (-b / t) ≤ Real.exp (-a / t) := by
    apply Real.exp_le_exp.2
    exact div_le_div_of_nonneg_right (by linarith) ht.le
  have e5 : (a * Real.exp (-a / t) + b * Real.exp (-b / t)) / 2 ≤ b * Real.exp (-a / t) := by
    have h1 := mul_le_mul_of_nonneg_left e3 hb0.le
    have h2 := mul_le_mul_of_nonneg_right hab (Real.exp_pos (-a / t)).le
    linarith
  calc (b - a) * ((a * Real.exp (-a / t) + b * Real.exp (-b / t)) / 2)
      ≤ (b - a) * (b * Real.exp (-a / t)) := mul_le_mul_of_nonneg_left e5 (sub_nonneg.2 hab)
    _ = ρ * (b / ρ * Real.exp (-a / t) * (b - a)) := by field_simp
    _ ≤ _ := mul_le_mul_of_nonneg_left hm hρ0.le

/-- The closed form left over after summing the cells. -/
theorem closed_form_pos (t : ℝ) (h1 : 2 / 3 ≤ t) (h2 : t ≤ 100) :
    0 < (-(1000 ^ 2 / (1.007 / t) + 2 * 1000 / (1.007 / t) ^ 2 + 2 / (1.007 / t) ^ 3) *
        Real.exp (-(1.007 / t) * 1000) -
      -(1 ^ 2 / (1.007 / t) + 2 * 1 / (1.007 / t) ^ 2 + 2 / (1.007 / t) ^ 3) *
        Real.exp (-(1.007 / t) * 1)) / 1.007 ^ 2 -
      3 / 2 * t * (1.007 * (-(1000 * (1.007 * t) + (1.007 * t) ^ 2) * Real.exp (-1000 / (1.007 * t)) -
      -(1 * (1.007 * t) + (1.007 * t) ^ 2) * Real.exp (-1 / (1.007 * t)))) := by
  have ht : 0 < t := by linarith
  set B := Real.exp (-1 / (1.007 * t)) with hB
  have hB0 : 0 < B := Real.exp_pos _
  -- the main term
  have hA : 0.979 * B ≤ Real.exp (-(1.007 / t) * 1) := by
    have e : Real.exp (-(1.007 / t) * 1) = Real.exp (1 / (1.007 * t) - 1.007 / t) * B := by
      rw [hB, ← Real.exp_add]; congr 1; ring
    rw [e]
    refine mul_le_mul_of_nonneg_right ?_ hB0.le
    have := Real.add_one_le_exp (1 / (1.007 * t) - 1.007 / t)
    refine le_trans ?_ this
    have e2 : 1 / (1.007 * t) - 1.007 / t = (1 / 1.007 - 1.007) / t := by field_simp
    rw [e2]
    have : (1 / 1.007 - 1.007) / t ≥ (1 / 1.007 - 1.007) * (3 / 2) := by
      rw [ge_iff_le, le_div_iff₀ ht]
      norm_num
      nlinarith
    norm_num at this ⊢
    linarith
  -- the tail
  have hC : (1000 ^ 2 * t + 2 * 1000 * t ^ 2 + 2 * t ^ 3) * Real.exp (-(1.007 / t) * 1000) ≤
      0.2 * t ^ 3 * B := by
    set z := 1000 / t with hz
    have hz10 : 10 ≤ z := by rw [hz, le_div_iff₀ ht]; linarith
    have e1 : Real.exp (-(1.007 / t) * 1000) ≤ Real.exp (-z) * B := by
      rw [hB, ← Real.exp_add]
      apply Real.exp_le_exp.2
      have : -1 / (1.007 * t) ≥ -(1 / t) := by
        rw [ge_iff_le, neg_div, neg_le_neg_iff]
        apply div_le_div_of_nonneg_left (by norm_num) ht
        linarith
      have e : -(1.007 / t) * 1000 = -z - 7 * (1 / t) := by rw [hz]; ring
      rw [e]
      have : 0 < 1 / t := by positivity
      linarith
    have e2 : z ^ 2 + 2 * z + 2 ≤ 0.2 * Real.exp z := by
      have h5 := Real.sum_le_exp_of_nonneg (by linarith : 0 ≤ z) 5
      simp only [Finset.sum_range_succ, Finset.sum_range_zero, Nat.factorial] at h5
      norm_num at h5
      have : z ^ 2 + 2 * z + 2 ≤ 0.2 * (1 + z + z ^ 2 / 2 + z ^ 3 / 6 + z ^ 4 / 24) := by
        obtain ⟨w, hw⟩ : ∃ w, w = z - 10 := ⟨_, rfl⟩
        have hz' : z = w + 10 := by rw [hw]; ring
        have hw0 : 0 ≤ w := by rw [hw]; linarith
        rw [hz']
        ring_nf
        nlinarith [pow_nonneg hw0 2, pow_nonneg hw0 3, pow_nonneg hw0 4]
      linarith
    have e3 : 1000 ^ 2 * t + 2 * 1000 * t ^ 2 + 2 * t ^ 3 = t ^ 3 * (z ^ 2 + 2 * z + 2) := by
      rw [hz]; field_simp
    rw [e3]
    calc t ^ 3 * (z ^ 2 + 2 * z + 2) * Real.exp (-(1.007 / t) * 1000)
        ≤ t ^ 3 * (z ^ 2 + 2 * z + 2) * (Real.exp (-z) * B) :=
          mul_le_mul_of_nonneg_left e1 (by positivity)
      _ = t ^ 3 * B * ((z ^ 2 + 2 * z + 2) * Real.exp (-z)) := by ring
      _ ≤ t ^ 3 * B * 0.2 := by
          refine mul_le_mul_of_nonneg_left ?_ (by positivity)
          rw [Real.exp_neg, ← div_eq_mul_inv, div_le_iff₀ (Real.exp_pos z)]
          exact e2
      _ = 0.2 * t ^ 3 * B := by ring
  set A := Real.exp (-(1.007 / t) * 1) with hAdef
  set C := Real.exp (-(1.007 / t) * 1000) with hCdef
  have hC0 : 0 < C := Real.exp_pos _
  have hE0 : 0 < Real.exp (-1000 / (1.007 * t)) := Real.exp_pos _
  set E := Real.exp (-1000 / (1.007 * t))
  have t1 : (1000 ^ 2 / (1.007 / t) + 2 * 1000 / (1.007 / t) ^ 2 + 2 / (1.007 / t) ^ 3) * C ≤
      (1000 ^ 2 * t + 2 * 1000 * t ^ 2 + 2 * t ^ 3) * C := by
    refine mul_le_mul_of_nonneg_right ?_ hC0.le
    have a1 : 1000 ^ 2 / (1.007 / t) ≤ 1000 ^ 2 * t := by
      rw [div_div_eq_mul_div]
      exact div_le_self (by positivity) (by norm_num)
    have a2 : 2 * 1000 / (1.007 / t) ^ 2 ≤ 2 * 1000 * t ^ 2 := by
      rw [div_pow, div_div_eq_mul_div]
      exact div_le_self (by positivity) (by norm_num)
    have a3 : 2 / (1.007 / t) ^ 3 ≤ 2 * t ^ 3 := by
      rw [div_pow, div_div_eq_mul_div]
      exact div_le_self (by positivity) (by norm_num)
    linarith
  have t2 : (t + 2 * t ^ 2 + 2 * t ^ 3) / 1.007 ^ 3 * A ≤
      (1 ^ 2 / (1.007 / t) + 2 * 1 / (1.007 / t) ^ 2 + 2 / (1.007 / t) ^ 3) * A := by
    refine mul_le_mul_of_nonneg_right ?_ (Real.exp_pos _).le
    have a1 : t / 1.007 ^ 3 ≤ 1 ^ 2 / (1.007 / t) := by
      rw [div_div_eq_mul_div, one_pow, one_mul]
      exact div_le_div_of_nonneg_left ht.le (by norm_num) (by norm_num)
    have a2 : 2 * t ^ 2 / 1.007 ^ 3 ≤ 2 * 1 / (1.007 / t) ^ 2 := by
      rw [div_pow, div_div_eq_mul_div, mul_one]
      exact div_le_div_of_nonneg_left (by positivity) (by norm_num) (by norm_num)
    have a3 : 2 * t ^ 3 / 1.007 ^ 3 ≤ 2 / (1.007 / t) ^ 3 := by
      rw [div_pow, div_div_eq_mul_div]
    have e : (t + 2 * t ^ 2 + 2 * t ^ 3) / 1.007 ^ 3 =
        t / 1.007 ^ 3 + 2 * t ^ 2 / 1.007 ^ 3 + 2 * t ^ 3 / 1.007 ^ 3 := by ring
    rw [e]
    linarith
  have t3 : (t + 2 * t ^ 2 + 2 * t ^ 3) / 1.007 ^ 3 * (0.979 * B) ≤
      (t + 2 * t ^ 2 + 2 * t ^ 3) / 1.007 ^ 3 * A :=
    mul_le_mul_of_nonneg_left hA (by positivity)
  have t4 : 0 ≤ (1000 * (1.007 * t) + (1.007 * t) ^ 2) * E := by positivity
  have key : 0 < ((t + 2 * t ^ 2 + 2 * t ^ 3) / 1.007 ^ 3 * (0.979 * B) - 0.2 * t ^ 3 * B) /
      1.007 ^ 2 - 3 / 2 * t * (1.007 * ((1 * (1.007 * t) + (1.007 * t) ^ 2) * B)) := by
    have : ((t + 2 * t ^ 2 + 2 * t ^ 3) / 1.007 ^ 3 * (0.979 * B) - 0.2 * t ^ 3 * B) /
      1.007 ^ 2 - 3 / 2 * t * (1.007 * ((1 * (1.007 * t) + (1.007 * t) ^ 2) * B)) =
      B * (((t + 2 * t ^ 2 + 2 * t ^ 3) / 1.007 ^ 3 * 0.979 - 0.2 * t ^ 3) /
      1.007 ^ 2 - 3 / 2 * t * (1.007 * (1 * (1.007 * t) + (1.007 * t) ^ 2))) := by ring
    rw [this]
    refine mul_pos hB0 ?_
    have e : ((t + 2 * t ^ 2 + 2 * t ^ 3) / 1.007 ^ 3 * 0.979 - 0.2 * t ^ 3) /
      1.007 ^ 2 - 3 / 2 * t * (1.007 * (1 * (1.007 * t) + (1.007 * t) ^ 2)) =
      (0.979 / 1.007 ^ 5) * t + (2 * 0.979 / 1.007 ^ 5 - 3 / 2 * 1.007 ^ 2) * t ^ 2 +
      (2 * 0.979 / 1.007 ^ 5 - 0.2 / 1.007 ^ 2 - 3 / 2 * 1.007 ^ 3) * t ^ 3 := by
      field_simp; ring
    rw [e]
    have c1 : (0 : ℝ) < 0.979 / 1.007 ^ 5 := by norm_num
    have c2 : (0 : ℝ) < 2 * 0.979 / 1.007 ^ 5 - 3 / 2 * 1.007 ^ 2 := by norm_num
    have c3 : (0 : ℝ) < 2 * 0.979 / 1.007 ^ 5 - 0.2 / 1.007 ^ 2 - 3 / 2 * 1.007 ^ 3 := by norm_num
    have := mul_pos c1 ht
    have := mul_pos c2 (pow_pos ht 2)
    have := mul_pos c3 (pow_pos ht 3)
    linarith
  refine lt_of_lt_of_le key ?_
  have s1 : ((t + 2 * t ^ 2 + 2 * t ^ 3) / 1.007 ^ 3 * (0.979 * B) - 0.2 * t ^ 3 * B) / 1.007 ^ 2 ≤
      (-(1000 ^ 2 / (1.007 / t) + 2 * 1000 / (1.007 / t) ^ 2 + 2 / (1.007 / t) ^ 3) * C -
      -(1 ^ 2 / (1.007 / t) + 2 * 1 / (1.007 / t) ^ 2 + 2 / (1.007 / t) ^ 3) * A) / 1.007 ^ 2 := by
    apply div_le_div_of_nonneg_right _ (by norm_num)
    linarith
  have s2 : 3 / 2 * t * (1.007 * (-(1000 * (1.007 * t) + (1.007 * t) ^ 2) * E -
      -(1 * (1.007 * t) + (1.007 * t) ^ 2) * B)) ≤
      3 / 2 * t * (1.007 * ((1 * (1.007 * t) + (1.007 * t) ^ 2) * B)) := by
    have : -(1000 * (1.007 * t) + (1.007 * t) ^ 2) * E - -(1 * (1.007 * t) + (1.007 * t) ^ 2) * B ≤
        (1 * (1.007 * t) + (1.007 * t) ^ 2) * B := by linarith
    have := mul_le_mul_of_nonneg_left this (by norm_num : (0 : ℝ) ≤ 1.007)
    exact mul_le_mul_of_nonneg_left this (by positivity)
  linarith

/-- The trapezoidal sum of `x (x - 3t/2) exp(-x/t)` from 1 to 1000 is positive. -/
theorem grid_pos (n : ℕ) (e : ℕ → ℝ) (h0 : e 0 = 1) (hn : e n = 1000) (hmono : ∀ i, e i ≤ e (i + 1))
    (hr : ∀ i, e (i + 1) ≤ 1.007 * e i) (t : ℝ) (h1 : 2 / 3 ≤ t) (h2 : t ≤ 100) :
    0 < ∑ i ∈ Finset.range n, (e (i + 1) - e i) *
      ((e i * (e i - 3 / 2 * t) * Real.exp (-e i / t) +
        e (i + 1) * (e (i + 1) - 3 / 2 * t) * Real.exp (-e (i + 1) / t)) / 2) := by
  have ht : 0 < t := by linarith
  have hpos : ∀ i, 0 < e i := by
    intro i
    induction i with
    | zero => rw [h0]; norm_num
    | succ i ih => exact lt_of_lt_of_le ih (hmono i)
  have hcf := closed_form_pos t h1 h2
  refine lt_of_lt_of_le hcf ?_
  have hs : ∀ i, ((-(e (i + 1) ^ 2 / (1.007 / t) + 2 * e (i + 1) / (1.007 / t) ^ 2 +
        2 / (1.007 / t) ^ 3) * Real.exp (-(1.007 / t) * e (i + 1)) -
      -(e i ^ 2 / (1.007 / t) + 2 * e i / (1.007 / t) ^ 2 + 2 / (1.007 / t) ^ 3) *
        Real.exp (-(1.007 / t) * e i)) / 1.007 ^ 2 -
      3 / 2 * t * (1.007 * (-(e (i + 1) * (1.007 * t) + (1.007 * t) ^ 2) *
        Real.exp (-e (i + 1) / (1.007 * t)) -
      -(e i * (1.007 * t) + (1.007 * t) ^ 2) * Real.exp (-e i / (1.007 * t))))) ≤
      (e (i + 1) - e i) * ((e i * (e i - 3 / 2 * t) * Real.exp (-e i / t) +
        e (i + 1) * (e (i + 1) - 3 / 2 * t) * Real.exp (-e (i + 1) / t)) / 2) := by
    intro i
    have c1 := cell_sq (e i) (e (i + 1)) t 1.007 (hpos i) (hmono i) (hr i) ht (by norm_num)
    have c2 := cell_lin (e i) (e (i + 1)) t 1.007 (hpos i) (hmono i) (hr i) ht (by norm_num)
    have c3 := mul_le_mul_of_nonneg_left c2 (by linarith : 0 ≤ 3 / 2 * t)
    calc _ ≤ _ := sub_le_sub c1 c3
      _ = _ := by ring
  refine le_trans (le_of_eq ?_) (Finset.sum_le_sum (fun i _ => hs i))
  have tel : ∀ f : ℝ → ℝ, ∑ i ∈ Finset.range n, (f (e (i + 1)) - f (e i)) = f 1000 - f 1 := by
    intro f
    rw [Finset.sum_range_sub (fun i => f (e i)), hn, h0]
  rw [Finset.sum_sub_distrib, ← Finset.sum_div, ← Finset.mul_sum, ← Finset.mul_sum]
  rw [tel (fun x => -(x ^ 2 / (1.007 / t) + 2 * x / (1.007 / t) ^ 2 + 2 / (1.007 / t) ^ 3) *
        Real.exp (-(1.007 / t) * x)),
    tel (fun x => -(x * (1.007 * t) + (1.007 * t) ^ 2) * Real.exp (-x / (1.007 * t)))]

/-- The same with a cross section that is at most `c` below `3t/2` and at least `c` above. -/
theorem grid_pos_weighted (n : ℕ) (hn0 : 0 < n) (e s : ℕ → ℝ) (h0 : e 0 = 1) (hn : e n = 1000)
    (hmono : ∀ i, e i < e (i + 1)) (hr : ∀ i, e (i + 1) ≤ 1.007 * e i) (hs : ∀ i ≤ n, 0 < s i)
    (t : ℝ) (ht : 0 < t) (h2 : t ≤ 100)
    (hc : 1 ≤ 3 / 2 * t → ∃ c, 0 < c ∧ ∀ i ≤ n, 0 ≤ (s i - c) * (e i - 3 / 2 * t)) :
    0 < ∑ i ∈ Finset.range n, (e (i + 1) - e i) *
      ((s i * e i * (e i - 3 / 2 * t) * Real.exp (-e i / t) +
        s (i + 1) * e (i + 1) * (e (i + 1) - 3 / 2 * t) * Real.exp (-e (i + 1) / t)) / 2) := by
  have hge : ∀ i, 1 ≤ e i := by
    intro i
    induction i with
    | zero => rw [h0]
    | succ i ih => exact ih.trans (hmono i).le
  by_cases h : 1 ≤ 3 / 2 * t
  · obtain ⟨c, hc0, hc⟩ := hc h
    have hg := mul_pos hc0 (grid_pos n e h0 hn (fun i => (hmono i).le) hr t (by linarith) h2)
    refine lt_of_lt_of_le hg ?_
    rw [Finset.mul_sum]
    refine Finset.sum_le_sum (fun i hi => ?_)
    have hi := Finset.mem_range.1 hi
    have hw : ∀ j ≤ n, c * (e j * (e j - 3 / 2 * t) * Real.exp (-e j / t)) ≤
        s j * e j * (e j - 3 / 2 * t) * Real.exp (-e j / t) := by
      intro j hj
      have hp : 0 < e j * Real.exp (-e j / t) :=
        mul_pos (by linarith [hge j]) (Real.exp_pos _)
      have := mul_nonneg (hc j hj) hp.le
      nlinarith
    have h3 := hw i (by omega)
    have h4 := hw (i + 1) (by omega)
    have h5 := sub_pos.2 (hmono i)
    have h6 : c * ((e i * (e i - 3 / 2 * t) * Real.exp (-e i / t) +
        e (i + 1) * (e (i + 1) - 3 / 2 * t) * Real.exp (-e (i + 1) / t)) / 2) ≤
      (s i * e i * (e i - 3 / 2 * t) * Real.exp (-e i / t) +
        s (i + 1) * e (i + 1) * (e (i + 1) - 3 / 2 * t) * Real.exp (-e (i + 1) / t)) / 2 := by
      linarith
    have := mul_le_mul_of_nonneg_left h6 h5.le
    linarith
  · push Not at h
    apply Finset.sum_pos
    · intro i hi
      have hi := Finset.mem_range.1 hi
      have hw : ∀ j ≤ n, 0 < s j * e j * (e j - 3 / 2 * t) * Real.exp (-e j / t) := by
        intro j hj
        have h1 := hge j
        have h2 := hs j hj
        have h3 : 0 < e j - 3 / 2 * t := by linarith
        have h4 : 0 < e j := by linarith
        have := Real.exp_pos (-e j / t)
        positivity
      have h3 := hw i (by omega)
      have h4 := hw (i + 1) (by omega)
      have h5 := sub_pos.2 (hmono i)
      exact mul_pos h5 (by linarith)
    · exact Finset.nonempty_range_iff.2 hn0.ne'

/-- The Maxwell average rises with temperature: `t^(-3/2)` times the trapezoidal sum. -/
theorem maxwell_strictMono (n : ℕ) (hn0 : 0 < n) (e s : ℕ → ℝ) (h0 : e 0 = 1) (hn : e n = 1000)
    (hmono : ∀ i, e i < e (i + 1)) (hr : ∀ i, e (i + 1) ≤ 1.007 * e i) (hs : ∀ i ≤ n, 0 < s i)
    (tm : ℝ) (htm : tm ≤ 100)
    (hc : ∀ t, 0 < t → t ≤ tm → 1 ≤ 3 / 2 * t →
      ∃ c, 0 < c ∧ ∀ i ≤ n, 0 ≤ (s i - c) * (e i - 3 / 2 * t)) :
    StrictMonoOn (fun t : ℝ => t ^ (-(3 : ℝ) / 2) * ∑ i ∈ Finset.range n, (e (i + 1) - e i) *
      ((s i * e i * Real.exp (-e i / t) + s (i + 1) * e (i + 1) * Real.exp (-e (i + 1) / t)) / 2))
      (Ioc 0 tm) := by
  have hd : ∀ t : ℝ, 0 < t → HasDerivAt (fun t : ℝ => t ^ (-(3 : ℝ) / 2) *
      ∑ i ∈ Finset.range n, (e (i + 1) - e i) *
      ((s i * e i * Real.exp (-e i / t) + s (i + 1) * e (i + 1) * Real.exp (-e (i + 1) / t)) / 2))
      (t ^ (-(7 : ℝ) / 2) * ∑ i ∈ Finset.range n, (e (i + 1) - e i) *
      ((s i * e i * (e i - 3 / 2 * t) * Real.exp (-e i / t) +
        s (i + 1) * e (i + 1) * (e (i + 1) - 3 / 2 * t) * Real.exp (-e (i + 1) / t)) / 2)) t := by
    intro t ht
    have hp : HasDerivAt (fun t : ℝ => t ^ (-(3 : ℝ) / 2))
        (-(3 : ℝ) / 2 * t ^ (-(3 : ℝ) / 2 - 1)) t :=
      Real.hasDerivAt_rpow_const (Or.inl ht.ne')
    have he : ∀ x : ℝ, HasDerivAt (fun t : ℝ => Real.exp (-x / t))
        (Real.exp (-x / t) * (x / t ^ 2)) t := by
      intro x
      have h1 : HasDerivAt (fun t : ℝ => -x / t) (x / t ^ 2) t := by
        have := (hasDerivAt_inv ht.ne').const_mul (-x)
        refine (this.congr_deriv ?_).congr_of_eventuallyEq ?_
        · field_simp
        · exact Filter.Eventually.of_forall (fun y => by simp [div_eq_mul_inv])
      exact h1.exp
    have hsum : HasDerivAt (fun t : ℝ => ∑ i ∈ Finset.range n, (e (i + 1) - e i) *
      ((s i * e i * Real.exp (-e i / t) + s (i + 1) * e (i + 1) * Real.exp (-e (i + 1) / t)) / 2))
      (∑ i ∈ Finset.range n, (e (i + 1) - e i) *
      ((s i * e i * (Real.exp (-e i / t) * (e i / t ^ 2)) +
        s (i + 1) * e (i + 1) * (Real.exp (-e (i + 1) / t) * (e (i + 1) / t ^ 2))) / 2)) t := by
      have := HasDerivAt.fun_sum (u := Finset.range n) (fun i (_ : i ∈ Finset.range n) =>
        ((((he (e i)).const_mul (s i * e i)).add
          ((he (e (i + 1))).const_mul (s (i + 1) * e (i + 1)))).div_const 2).const_mul
          (e (i + 1) - e i))
      exact this
    refine (hp.mul hsum).congr_deriv ?_
    have p1 : t ^ (-(3 : ℝ) / 2 - 1) = t ^ (-(7 : ℝ) / 2) * t := by
      rw [← Real.rpow_add_one ht.ne']; norm_num
    have p2 : t ^ (-(3 : ℝ) / 2) = t ^ (-(7 : ℝ) / 2) * t ^ 2 := by
      rw [← Real.rpow_natCast t 2, ← Real.rpow_add ht]; norm_num
    rw [p1, p2, Finset.mul_sum, Finset.mul_sum, Finset.mul_sum, ← Finset.sum_add_distrib]
    refine Finset.sum_congr rfl (fun i _ => ?_)
    field_simp
    ring
  apply strictMonoOn_of_deriv_pos (convex_Ioc 0 tm)
  · intro t ht
    exact (hd t ht.1).continuousAt.continuousWithinAt
  · intro t ht
    have ht := interior_subset ht
    rw [(hd t ht.1).deriv]
    refine mul_pos (Real.rpow_pos_of_pos ht.1 _) ?_
    exact grid_pos_weighted n hn0 e s h0 hn hmono hr hs t ht.1 (ht.2.trans htm)
      (hc t ht.1 ht.2)

end TNS
