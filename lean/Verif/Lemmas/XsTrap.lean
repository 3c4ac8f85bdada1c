import Verif.Lemmas.XsFactor
/-
The trapezoidal rule with rounding.
-/

set_option autoImplicit false

namespace TNS
open Spec
noncomputable section

variable {A : Arith} {F : MathLib} {u v η : ℝ}

/-- One term of the trapezoidal rule. -/
theorem trapTerm_close (S : Setting A F u v η) {E0 E1 e0 e1 y0 y1 Y0 Y1 : ℝ} (h0 : LC (27.1 * v) e0 E0)
    (h1 : LC (27.1 * v) e1 E1) (hd : E1 + E0 ≤ 300 * (E1 - E0)) (hlo : 1e-16 ≤ E0) (hhi : E1 ≤ 2e-13)
    (hY0 : 0 ≤ Y0) (hY1 : 0 ≤ Y1) (hy0 : |y0 - Y0| ≤ v * (154200 * Y0) + v * (10 ^ 38 * (1 / 10 ^ 250)))
    (hy1 : |y1 - Y1| ≤ v * (154200 * Y1) + v * (10 ^ 38 * (1 / 10 ^ 250))) :
    |A.rd (A.rd (A.rd (e1 - e0) * A.rd (y1 + y0)) / 2) - (E1 - E0) * ((Y0 + Y1) / 2)| ≤
      v * (163000 * ((E1 - E0) * ((Y0 + Y1) / 2))) + v * (10 ^ 27 * (1 / 10 ^ 250)) := by
  have hv := S.v_nonneg
  have hv1 := S.v_le
  have rae := fun {z y a q : ℝ} => rd_abs_err S (z := z) (y := y) (a := a) (q := q)
  have hτ0 : (0 : ℝ) < 1 / 10 ^ 250 := by positivity
  have hτ1 : (1 : ℝ) / 10 ^ 250 ≤ 1 / 10 ^ 30 := by norm_num
  generalize (1 : ℝ) / 10 ^ 250 = τ at *
  have r0 := h0.rel (by linarith)
  have r1 := h1.rel (by linarith)
  have hE0 := h0.2.1
  have hE1 := h1.2.1
  set d := E1 - E0
  have hd0 : 1 / 10 ^ 20 ≤ d := by
    have : (1 : ℝ) / 10 ^ 20 ≤ 1e-16 / 300 := by norm_num
    linarith
  have hdp : 0 < d := lt_of_lt_of_le (by norm_num) hd0
  have hd1 : d ≤ 2e-13 := by
    change E1 - E0 ≤ _
    linarith
  -- the spacing
  have d1 : |(e1 - e0) - d| ≤ v * (8295 * d) + v * 0 := by
    have a0 := abs_le.1 r0
    have a1 := abs_le.1 r1
    have k : v * (E1 + E0) ≤ v * (300 * d) := mul_le_mul_of_nonneg_left hd hv
    rw [abs_le]
    change _ ≤ e1 - e0 - (E1 - E0) ∧ e1 - e0 - (E1 - E0) ≤ _
    have hvd : 0 ≤ v * d := mul_nonneg hv hdp.le
    constructor <;> linarith
  have d2 := rae hdp.le le_rfl (by linarith) d1
  have d3 : |A.rd (e1 - e0) - d| ≤ 8298 * v * d := by
    refine d2.trans ?_
    have : v * τ ≤ v * d := mul_le_mul_of_nonneg_left (by linarith [show (1 : ℝ) / 10 ^ 30 ≤ 1 / 10 ^ 20 by norm_num]) hv
    have hvd : 0 ≤ v * d := mul_nonneg hv hdp.le
    linarith
  set d' := A.rd (e1 - e0)
  have d4 : |d'| ≤ 1.0001 * d := by
    have := abs_le.1 d3
    have k : 8298 * v * d ≤ 0.0001 * d := mul_le_mul_of_nonneg_right (by linarith) hdp.le
    rw [abs_le]
    constructor <;> linarith
  -- the sum of two values
  set s := Y0 + Y1
  have hs : 0 ≤ s := add_nonneg hY0 hY1
  have s1 : |(y1 + y0) - s| ≤ v * (154200 * s) + v * (2 * 10 ^ 38 * τ) := by
    have a0 := abs_le.1 hy0
    have a1 := abs_le.1 hy1
    rw [abs_le]
    change _ ≤ y1 + y0 - (Y0 + Y1) ∧ _ ≤ v * (154200 * (Y0 + Y1)) + _
    have : s = Y0 + Y1 := rfl
    rw [this]
    constructor <;> linarith
  have s2 := rae hs (by positivity) (by linarith) s1
  set s' := A.rd (y1 + y0)
  -- the product
  have hds : 0 ≤ d * s := mul_nonneg hdp.le hs
  have hdτ : d * τ ≤ 2e-13 * τ := mul_le_mul_of_nonneg_right hd1 hτ0.le
  have p1 : |d' * s' - d * s| ≤ v * (162516 * (d * s)) + v * (2 * 10 ^ 26 * τ) := by
    have e1 : d' * s' - d * s = d' * (s' - s) + (d' - d) * s := by ring
    have k1 : |d' * (s' - s)| ≤ 1.0001 * d * (v * ((154200 + 1.01) * s) + v * (2 * (2 * 10 ^ 38 * τ) + τ)) := by
      rw [abs_mul]
      exact mul_le_mul d4 s2 (abs_nonneg _) (by positivity)
    have k2 : |(d' - d) * s| ≤ 8298 * v * d * s := by
      rw [abs_mul, abs_of_nonneg hs]
      exact mul_le_mul_of_nonneg_right d3 hs
    have k3 := abs_add_le (d' * (s' - s)) ((d' - d) * s)
    have k4 : v * (1.0001 * (2 * (2 * 10 ^ 38) + 1) * (d * τ)) ≤ v * (2 * 10 ^ 26 * τ) := by
      refine mul_le_mul_of_nonneg_left ?_ hv
      have := mul_le_mul_of_nonneg_left hdτ (show (0 : ℝ) ≤ 1.0001 * (2 * (2 * 10 ^ 38) + 1) by norm_num)
      refine this.trans ?_
      rw [← mul_assoc]
      exact mul_le_mul_of_nonneg_right (by norm_num) hτ0.le
    have hvds : 0 ≤ v * (d * s) := mul_nonneg hv hds
    rw [e1]
    have e2 : 1.0001 * d * (v * ((154200 + 1.01) * s) + v * (2 * (2 * 10 ^ 38 * τ) + τ)) =
      1.0001 * (154200 + 1.01) * (v * (d * s)) + v * (1.0001 * (2 * (2 * 10 ^ 38) + 1) * (d * τ)) := by ring
    rw [e2] at k1
    linarith
  have p2 := rae hds (by positivity) (by linarith) p1
  set p := A.rd (d' * s')
  have hm : d * (s / 2) = d * s / 2 := by ring
  rw [hm]
  have q1 : |p / 2 - d * s / 2| ≤ v * ((162516 + 1.01) * (d * s / 2)) + v * (2 * 10 ^ 26 * τ + τ) := by
    have := abs_le.1 p2
    rw [abs_le]
    have : 0 ≤ v * τ := by positivity
    constructor <;> linarith
  have q2 := rae (y := d * s / 2) (by linarith) (by positivity) (by linarith) q1
  refine q2.trans (add_le_add (mul_le_mul_of_nonneg_left ?_ hv) (mul_le_mul_of_nonneg_left ?_ hv))
  · linarith
  · have : 0 < τ := hτ0
    linarith

theorem abs_list_sum (l : List ℝ) : |l.sum| ≤ (l.map (|·|)).sum := by
  induction l with
  | nil => simp
  | cons a l ih =>
    simp only [List.sum_cons, List.map_cons]
    exact (abs_add_le _ _).trans (by linarith)

/-- Adding up, in any order. -/
theorem tree_err {rd : ℝ → ℝ} {v τ : ℝ} (hv : 0 ≤ v) (hτ : 0 ≤ τ) (err : ∀ x, |rd x - x| ≤ v * |x| + v * τ)
    (t : SumTree) :
    1 ≤ t.leaves.length ∧ |t.eval rd - t.leaves.sum| ≤
      ((1 + v) ^ (t.leaves.length - 1) - 1) * ((t.leaves.map (|·|)).sum + t.leaves.length * τ) := by
  induction t with
  | leaf x => simp [SumTree.leaves, SumTree.eval]
  | node a b iha ihb =>
    obtain ⟨la, ia⟩ := iha
    obtain ⟨lb, ib⟩ := ihb
    have sa : |a.leaves.sum| ≤ (a.leaves.map (|·|)).sum := abs_list_sum _
    have sb : |b.leaves.sum| ≤ (b.leaves.map (|·|)).sum := abs_list_sum _
    simp only [SumTree.leaves, SumTree.eval, List.length_append, List.sum_append, List.map_append]
    obtain ⟨m, hm⟩ : ∃ m, a.leaves.length = m + 1 := ⟨_, (Nat.sub_add_cancel la).symm⟩
    obtain ⟨n, hn⟩ : ∃ n, b.leaves.length = n + 1 := ⟨_, (Nat.sub_add_cancel lb).symm⟩
    refine ⟨by omega, ?_⟩
    rw [hm] at ia ⊢
    rw [hn] at ib ⊢
    set α := (a.leaves.map (|·|)).sum
    set β := (b.leaves.map (|·|)).sum
    have hα : 0 ≤ α := (abs_nonneg _).trans sa
    have hβ : 0 ≤ β := (abs_nonneg _).trans sb
    have hv1 : 1 ≤ 1 + v := by linarith
    rw [show m + 1 + (n + 1) - 1 = (m + n) + 1 by omega, pow_succ]
    rw [show m + 1 - 1 = m by omega] at ia
    rw [show n + 1 - 1 = n by omega] at ib
    have pa : (1 + v) ^ m ≤ (1 + v) ^ (m + n) := pow_le_pow_right₀ hv1 (by omega)
    have pb : (1 + v) ^ n ≤ (1 + v) ^ (m + n) := pow_le_pow_right₀ hv1 (by omega)
    have pc : 1 ≤ (1 + v) ^ (m + n) := one_le_pow₀ hv1
    set P := (1 + v) ^ (m + n)
    set X := α + ((m + 1 : ℕ) : ℝ) * τ
    set Y := β + ((n + 1 : ℕ) : ℝ) * τ
    have hX : 0 ≤ X := by positivity
    have hY : 0 ≤ Y := by positivity
    have e : α + β + ((m + 1 + (n + 1) : ℕ) : ℝ) * τ = X + Y := by
      change _ = α + ((m + 1 : ℕ) : ℝ) * τ + (β + ((n + 1 : ℕ) : ℝ) * τ)
      push_cast
      ring
    have hτX : α + τ ≤ X := by
      change _ ≤ α + ((m + 1 : ℕ) : ℝ) * τ
      push_cast
      nlinarith [show (0 : ℝ) ≤ (m : ℝ) * τ by positivity]
    have hβY : β ≤ Y := by
      change _ ≤ β + ((n + 1 : ℕ) : ℝ) * τ
      have : 0 ≤ ((n + 1 : ℕ) : ℝ) * τ := by positivity
      linarith
    rw [e]
    have a1 : ((1 + v) ^ m - 1) * X ≤ (P - 1) * X := mul_le_mul_of_nonneg_right (by linarith) hX
    have b1 : ((1 + v) ^ n - 1) * Y ≤ (P - 1) * Y := mul_le_mul_of_nonneg_right (by linarith) hY
    have s1 : |a.eval rd + b.eval rd - (a.leaves.sum + b.leaves.sum)| ≤ (P - 1) * (X + Y) := by
      have := abs_le.1 (ia.trans a1)
      have := abs_le.1 (ib.trans b1)
      rw [abs_le]
      constructor <;> linarith
    have s2 : |a.eval rd + b.eval rd| + τ ≤ P * (X + Y) := by
      have := abs_le.1 sa
      have := abs_le.1 sb
      have := abs_le.1 s1
      have : |a.eval rd + b.eval rd| ≤ α + β + (P - 1) * (X + Y) := by
        rw [abs_le]
        constructor <;> linarith
      linarith
    have s3 := err (a.eval rd + b.eval rd)
    have s4 : v * |a.eval rd + b.eval rd| + v * τ ≤ v * (P * (X + Y)) := by
      rw [← mul_add]; exact mul_le_mul_of_nonneg_left s2 hv
    have := abs_le.1 s1
    have := abs_le.1 s3
    rw [abs_le]
    constructor <;> linarith

theorem sum_err (S : Setting A F u v η) (l : List ℝ) (hl : l ≠ []) :
    |A.npSum l - l.sum| ≤ ((1 + v) ^ (l.length - 1) - 1) * ((l.map (|·|)).sum + l.length * (1 / 10 ^ 250)) := by
  obtain ⟨t, hp, e⟩ := S.arith.npSum.2 l hl
  have := (tree_err S.v_nonneg (by positivity) S.err t).2
  rw [e, ← hp.sum_eq, ← hp.length_eq, ← (hp.map (|·|)).sum_eq]
  exact this

theorem pow_998 {v : ℝ} (h0 : 0 ≤ v) (h1 : v ≤ 1 / 10 ^ 8) (n : ℕ) (hn : (n : ℝ) ≤ 998) :
    (1 + v) ^ n - 1 ≤ 1000 * v := by
  have a1 : (1 + v) ^ n ≤ Real.exp (n * v) := by
    have := pow_le_pow_left₀ (by linarith) (show 1 + v ≤ Real.exp v by linarith [Real.add_one_le_exp v]) n
    exact this.trans (Real.exp_nat_mul v n).ge
  have hn0 : (0 : ℝ) ≤ n := by positivity
  have b1 : (n : ℝ) * v ≤ 998 * v := mul_le_mul_of_nonneg_right hn h0
  have b0 : 0 ≤ (n : ℝ) * v := mul_nonneg hn0 h0
  generalize (n : ℝ) * v = w at *
  generalize (1 + v) ^ n = P at *
  have a2 := Real.abs_exp_sub_one_sub_id_le (x := w) (by rw [abs_of_nonneg b0]; linarith)
  have := (abs_le.1 a2).2
  nlinarith

theorem trapezoidTermsR_range (A : Arith) (n : ℕ) (f g : ℕ → ℝ) :
    trapezoidTermsR A ((List.range (n + 1)).map (fun i : ℕ => (f i, g i))) =
      (List.range n).map fun i : ℕ => A.rd (A.rd (A.rd (f (i + 1) - f i) * A.rd (g (i + 1) + g i)) / 2) := by
  induction n generalizing f g with
  | zero => simp [trapezoidTermsR]
  | succ n ih =>
    rw [List.range_succ_eq_map, List.map_cons, List.map_map, List.range_succ_eq_map (n := n), List.map_cons,
      List.map_map]
    have := ih (fun i => f (i + 1)) (fun i => g (i + 1))
    rw [List.range_succ_eq_map] at this
    simp only [List.map_cons, trapezoidTermsR, List.map_map, Function.comp_def, Nat.succ_eq_add_one] at this ⊢
    rw [this]

end
end TNS
