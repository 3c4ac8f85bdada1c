import Mathlib.Analysis.Convex.Deriv
import Mathlib.MeasureTheory.Integral.IntervalIntegral.FundThmCalculus
import Verif.Spec.Moments
import Verif.Lemmas.Trapezoid
/-
Error of linear interpolation on an equidistant grid, and moments of the interpolant.
-/

set_option autoImplicit false
set_option linter.unusedSectionVars false

namespace TNS
open Spec

/-- The chord of `f` on `[p, q]` at `x`. -/
noncomputable def chord (f : ℝ → ℝ) (p q x : ℝ) : ℝ := f p + (f q - f p) * ((x - p) / (q - p))

theorem chord_above {f : ℝ → ℝ} {p q : ℝ} (h : p < q) (hf : ConvexOn ℝ (Set.Icc p q) f) (x : ℝ)
    (hx : x ∈ Set.Icc p q) : f x ≤ chord f p q x := by
  have hd : 0 < q - p := by linarith
  have := hf.2 (Set.left_mem_Icc.2 h.le) (Set.right_mem_Icc.2 h.le)
    (div_nonneg (sub_nonneg.2 hx.2) hd.le : 0 ≤ (q - x) / (q - p))
    (div_nonneg (sub_nonneg.2 hx.1) hd.le : 0 ≤ (x - p) / (q - p)) (by field_simp; ring)
  simp only [smul_eq_mul] at this
  have e : (q - x) / (q - p) * p + (x - p) / (q - p) * q = x := by field_simp; ring
  have e2 : (q - x) / (q - p) * f p + (x - p) / (q - p) * f q = chord f p q x := by
    unfold chord; field_simp; ring
  rwa [e, e2] at this

/-- Linear interpolation of a function with second derivative bounded by `K`. -/
theorem chord_error {f f' f'' : ℝ → ℝ} {p q K : ℝ} (h : p < q)
    (h1 : ∀ x ∈ Set.Icc p q, HasDerivAt f (f' x) x) (h2 : ∀ x ∈ Set.Icc p q, HasDerivAt f' (f'' x) x)
    (hK : ∀ x ∈ Set.Icc p q, |f'' x| ≤ K) (x : ℝ) (hx : x ∈ Set.Icc p q) :
    |chord f p q x - f x| ≤ K * (q - p) ^ 2 / 8 := by
  have hd : 0 < q - p := by linarith
  have K0 : 0 ≤ K := (abs_nonneg _).trans (hK x hx)
  have conv : ∀ s : ℝ, |s| ≤ 1 → ConvexOn ℝ (Set.Icc p q) (fun y => s * f y + K / 2 * y ^ 2) := by
    intro s hs
    have d1 : ∀ y ∈ Set.Icc p q, HasDerivAt (fun y => s * f y + K / 2 * y ^ 2) (s * f' y + K * y) y := by
      intro y hy
      have := ((h1 y hy).const_mul s).add (((hasDerivAt_id y).pow 2).const_mul (K / 2))
      refine this.congr_deriv ?_
      simp; ring
    have d2 : ∀ y ∈ Set.Icc p q, HasDerivAt (fun y => s * f' y + K * y) (s * f'' y + K) y := by
      intro y hy
      have := ((h2 y hy).const_mul s).add ((hasDerivAt_id y).const_mul K)
      refine this.congr_deriv ?_
      simp
    refine convexOn_of_hasDerivWithinAt2_nonneg (f' := fun y => s * f' y + K * y)
      (f'' := fun y => s * f'' y + K) (convex_Icc p q)
      (fun y hy => (d1 y hy).continuousAt.continuousWithinAt) ?_ ?_ ?_
    · intro y hy
      exact (d1 y (interior_subset hy)).hasDerivWithinAt
    · intro y hy
      exact (d2 y (interior_subset hy)).hasDerivWithinAt
    · intro y hy
      have a := hK y (interior_subset hy)
      have : |s * f'' y| ≤ K := by
        rw [abs_mul]
        calc |s| * |f'' y| ≤ 1 * |f'' y| := by gcongr
          _ ≤ K := by linarith
      linarith [(abs_le.1 this).1]
  have up : ∀ s : ℝ, |s| ≤ 1 → s * f x - s * chord f p q x ≤ K * (q - p) ^ 2 / 8 := by
    intro s hs
    have := chord_above h (conv s hs) x hx
    have e : chord (fun y => s * f y + K / 2 * y ^ 2) p q x =
        s * chord f p q x + K / 2 * (x ^ 2 + (x - p) * (q - x)) := by
      unfold chord; field_simp; ring
    rw [e] at this
    have sq : (x - p) * (q - x) ≤ (q - p) ^ 2 / 4 := by nlinarith [sq_nonneg (2 * x - p - q)]
    nlinarith
  have u1 := up 1 (by simp)
  have u2 := up (-1) (by simp)
  rw [abs_le]
  constructor <;> linarith

theorem zipWith_tail_sum {α : Type} (F : α → α → ℝ) (u : ℕ → α) (n : ℕ) :
    (List.zipWith F ((List.range (n + 1)).map u) ((List.range (n + 1)).map u).tail).sum =
      ∑ i ∈ Finset.range n, F (u i) (u (i + 1)) := by
  have e : List.zipWith F ((List.range (n + 1)).map u) ((List.range (n + 1)).map u).tail =
      (List.range n).map (fun i => F (u i) (u (i + 1))) := by
    apply List.ext_getElem
    · simp
    · intro i h1 h2
      simp
  rw [e]
  induction n with
  | zero => simp
  | succ n ih => 
    rw [List.range_succ, List.map_append, List.sum_append, Finset.sum_range_succ, ih]
    · simp
    · apply List.ext_getElem
      · simp
      · intro i h1 h2
        simp

theorem chord_continuous (f : ℝ → ℝ) (p q : ℝ) : Continuous (chord f p q) := by
  unfold chord; fun_prop

/-- The area of a table is its zeroth moment. -/
theorem segment_area (p q a b : ℝ) (h : p < q) :
    (∫ x in p..q, (1 : ℝ) * (a + (b - a) * ((x - p) / (q - p)))) = (a + b) / 2 * (q - p) := by
  have hd : q - p ≠ 0 := by linarith
  have : ∀ x ∈ Set.uIcc p q, HasDerivAt (fun x => a * x + (b - a) * ((x - p) ^ 2 / (2 * (q - p))))
      ((1 : ℝ) * (a + (b - a) * ((x - p) / (q - p)))) x := by
    intro x _
    have := ((hasDerivAt_id x).const_mul a).add
      (((((hasDerivAt_id x).sub_const p).pow 2).div_const (2 * (q - p))).const_mul (b - a))
    refine this.congr_deriv ?_
    simp only [id, mul_one]; push_cast; field_simp
  rw [intervalIntegral.integral_eq_sub_of_hasDerivAt this (by
    apply Continuous.intervalIntegrable; fun_prop)]
  field_simp; ring

theorem area_eq_moment (l : List (ℝ × ℝ)) (hs : l.Pairwise (fun p q => p.1 < q.1)) :
    area l = moment (fun _ => 1) l := by
  induction l with
  | nil => simp [area, moment]
  | cons p l ih =>
    cases l with
    | nil => simp [area, moment]
    | cons q l =>
      have ih := ih (List.pairwise_cons.1 hs).2
      have hlt := (List.pairwise_cons.1 hs).1 q (by simp)
      simp only [area, moment, List.tail_cons, List.zipWith_cons_cons, List.sum_cons] at ih ⊢
      rw [ih, segment_area _ _ _ _ hlt]

theorem moment_add (φ ψ : ℝ → ℝ) (hφ : Continuous φ) (hψ : Continuous ψ) (l : List (ℝ × ℝ)) :
    moment (fun x => φ x + ψ x) l = moment φ l + moment ψ l := by
  induction l with
  | nil => simp [moment]
  | cons p l ih =>
    cases l with
    | nil => simp [moment]
    | cons q l =>
      simp only [moment, List.tail_cons, List.zipWith_cons_cons, List.sum_cons] at ih ⊢
      rw [ih]
      simp only [add_mul]
      rw [intervalIntegral.integral_add]
      · ring
      · apply Continuous.intervalIntegrable; fun_prop
      · apply Continuous.intervalIntegrable; fun_prop

theorem moment_smul (φ : ℝ → ℝ) (k : ℝ) (l : List (ℝ × ℝ)) :
    moment (fun x => k * φ x) l = k * moment φ l := by
  induction l with
  | nil => simp [moment]
  | cons p l ih =>
    cases l with
    | nil => simp [moment]
    | cons q l =>
      simp only [moment, List.tail_cons, List.zipWith_cons_cons, List.sum_cons] at ih ⊢
      rw [ih]
      simp only [mul_assoc]
      rw [intervalIntegral.integral_const_mul]
      ring

/-- Moments of the interpolant of `c f` on an equidistant grid. -/
theorem moment_grid (f f' f'' φ ψ : ℝ → ℝ) (a b c K : ℝ) (n : ℕ) (hn : 1 ≤ n) (hab : a < b) (hc : 0 < c)
    (h1 : ∀ x ∈ Set.Icc a b, HasDerivAt f (f' x) x) (h2 : ∀ x ∈ Set.Icc a b, HasDerivAt f' (f'' x) x)
    (hK : ∀ x ∈ Set.Icc a b, |f'' x| ≤ K) (hφ : Continuous φ) (hψ : Continuous ψ)
    (hW : ∀ x ∈ Set.Icc a b, |φ x| ≤ ψ x) :
    |moment φ ((linspace a b (n + 1)).map (fun e => (e, c * f e))) - c * ∫ x in a..b, φ x * f x| ≤
      c * (K * ((b - a) / n) ^ 2 / 8 * ∫ x in a..b, ψ x) := by
  have n0 : (0 : ℝ) < n := by exact_mod_cast hn
  obtain ⟨h, hh⟩ : ∃ h, h = (b - a) / (n : ℝ) := ⟨_, rfl⟩
  have h0 : 0 < h := by rw [hh]; exact div_pos (by linarith) n0
  have nh : (n : ℝ) * h = b - a := by rw [hh]; field_simp
  obtain ⟨u, hu⟩ : ∃ u : ℕ → ℝ, u = fun i : ℕ => a + (i : ℝ) * h := ⟨_, rfl⟩
  have us : ∀ i, u (i + 1) = u i + h := by intro i; rw [hu]; push_cast; ring
  have ua : ∀ i, a ≤ u i := by
    intro i; rw [hu]; have : (0 : ℝ) ≤ (i : ℝ) * h := by positivity
    simp only; linarith
  have ub : ∀ i, i ≤ n → u i ≤ b := by
    intro i hi; rw [hu]
    have : (i : ℝ) * h ≤ n * h := by gcongr
    simp only; linarith
  have u0 : u 0 = a := by rw [hu]; simp
  have un : u n = b := by rw [hu]; simp only; linarith
  have cont : ContinuousOn (fun x => φ x * f x) (Set.Icc a b) :=
    hφ.continuousOn.mul (fun x hx => (h1 x hx).continuousAt.continuousWithinAt)
  have inc : ∀ i < n, Set.uIcc (u i) (u (i + 1)) ⊆ Set.Icc a b := by
    intro i hi
    rw [Set.uIcc_of_le (by rw [us]; linarith)]
    exact Set.Icc_subset_Icc (ua i) (ub _ hi)
  have int : ∀ i < n, IntervalIntegrable (fun x => φ x * f x) MeasureTheory.volume (u i) (u (i + 1)) :=
    fun i hi => (cont.mono (inc i hi)).intervalIntegrable
  have el : (linspace a b (n + 1)).map (fun e => (e, c * f e)) =
      (List.range (n + 1)).map (fun i => (u i, c * f (u i))) := by
    unfold linspace
    rw [List.map_map]
    apply List.map_congr_left
    intro i _
    simp only [Function.comp, hu, hh]
    push_cast
    rw [add_sub_cancel_right]
  have em : moment φ ((linspace a b (n + 1)).map (fun e => (e, c * f e))) =
      c * ∑ i ∈ Finset.range n, ∫ x in u i..u (i + 1), φ x * chord f (u i) (u (i + 1)) x := by
    unfold moment
    rw [el, zipWith_tail_sum, Finset.mul_sum]
    apply Finset.sum_congr rfl
    intro i _
    rw [← intervalIntegral.integral_const_mul]
    congr 1
    funext x
    unfold chord
    ring
  have ei : ∫ x in a..b, φ x * f x = ∑ i ∈ Finset.range n, ∫ x in u i..u (i + 1), φ x * f x := by
    rw [intervalIntegral.sum_integral_adjacent_intervals int, u0, un]
  rw [em, ei, ← mul_sub, ← Finset.sum_sub_distrib, abs_mul, abs_of_pos hc]
  gcongr
  have cell : ∀ i ∈ Finset.range n, |(∫ x in u i..u (i + 1), φ x * chord f (u i) (u (i + 1)) x) -
      ∫ x in u i..u (i + 1), φ x * f x| ≤ K * h ^ 2 / 8 * ∫ x in u i..u (i + 1), ψ x := by
    intro i hi
    have hi := Finset.mem_range.1 hi
    rw [← intervalIntegral.integral_sub
      (Continuous.intervalIntegrable (by have := chord_continuous f (u i) (u (i + 1)); fun_prop) _ _) (int i hi)]
    have hlt : u i < u (i + 1) := by rw [us]; linarith
    have hsub : u (i + 1) - u i = h := by rw [us]; ring
    rw [← intervalIntegral.integral_const_mul, ← Real.norm_eq_abs]
    refine intervalIntegral.norm_integral_le_of_norm_le hlt.le ?_
      (Continuous.intervalIntegrable (by fun_prop) _ _)
    refine Filter.Eventually.of_forall (fun x hx => ?_)
    have hx' : x ∈ Set.Icc (u i) (u (i + 1)) := ⟨hx.1.le, hx.2⟩
    have big : ∀ y ∈ Set.Icc (u i) (u (i + 1)), y ∈ Set.Icc a b := fun y hy =>
      inc i hi (Set.Icc_subset_uIcc hy)
    rw [← mul_sub, Real.norm_eq_abs, abs_mul, mul_comm (K * h ^ 2 / 8)]
    have ce := chord_error hlt (fun y hy => h1 y (big y hy)) (fun y hy => h2 y (big y hy))
      (fun y hy => hK y (big y hy)) x hx'
    rw [hsub] at ce
    exact mul_le_mul (hW x (big x hx')) ce (abs_nonneg _)
      ((abs_nonneg _).trans (hW x (big x hx')))
  calc |∑ i ∈ Finset.range n, ((∫ x in u i..u (i + 1), φ x * chord f (u i) (u (i + 1)) x) -
      ∫ x in u i..u (i + 1), φ x * f x)| ≤
        ∑ i ∈ Finset.range n, K * h ^ 2 / 8 * ∫ x in u i..u (i + 1), ψ x :=
        (Finset.abs_sum_le_sum_abs _ _).trans (Finset.sum_le_sum cell)
    _ = K * ((b - a) / n) ^ 2 / 8 * ∫ x in a..b, ψ x := by
      rw [← Finset.mul_sum, intervalIntegral.sum_integral_adjacent_intervals
        (fun k _ => hψ.intervalIntegrable _ _), u0, un, ← hh]

end TNS
