import Verif.Spec.RoundedXs
import Verif.Lemmas.LogClose
import Verif.Props.RoundedReactivity
/-
Arithmetic with gradual underflow: relative errors of results that are not tiny.
-/

set_option autoImplicit false

namespace TNS
open Spec
noncomputable section

/-- The setting of the error analysis. -/
structure Setting (A : Arith) (F : MathLib) (u v η : ℝ) : Prop where
  arith : GradualModel A u η
  lib : GradualLib F v η
  uv : u ≤ v
  v_le : v ≤ 1 / 10 ^ 8
  η_le : η ≤ 1 / 10 ^ 250

theorem LC.half {ε a b : ℝ} (h : LC ε a b) (he : ε ≤ 1 / 100) : b / 2 ≤ a ∧ a ≤ 2 * b := by
  have := abs_le.1 (h.rel he)
  have := h.2.1
  constructor <;> nlinarith

namespace Setting
variable {A : Arith} {F : MathLib} {u v η : ℝ}

theorem v_nonneg (S : Setting A F u v η) : 0 ≤ v := S.arith.u_nonneg.trans S.uv

theorem err (S : Setting A F u v η) (x : ℝ) : |A.rd x - x| ≤ v * |x| + v * (1 / 10 ^ 250) := by
  refine (S.arith.err x).trans ?_
  have h0 := S.arith.u_nonneg
  have hv := S.v_nonneg
  have h1 : max |x| η ≤ |x| + 1 / 10 ^ 250 :=
    max_le (by have : (0 : ℝ) < 1 / 10 ^ 250 := by positivity
               linarith) (by linarith [S.η_le, abs_nonneg x])
  have h2 : (0 : ℝ) ≤ |x| + 1 / 10 ^ 250 := by positivity
  calc u * max |x| η ≤ u * (|x| + 1 / 10 ^ 250) := mul_le_mul_of_nonneg_left h1 h0
    _ ≤ v * (|x| + 1 / 10 ^ 250) := mul_le_mul_of_nonneg_right S.uv h2
    _ = _ := by ring

theorem rel (S : Setting A F u v η) {x : ℝ} (hx : 1 / 10 ^ 250 ≤ |x|) : |A.rd x - x| ≤ v * |x| := by
  refine (S.arith.err x).trans ?_
  rw [max_eq_left (S.η_le.trans hx)]
  exact mul_le_mul_of_nonneg_right S.uv (abs_nonneg _)

/-- The relative error of a result that is not tiny. -/
theorem rd (S : Setting A F u v η) {x : ℝ} (hx : 1 / 10 ^ 250 ≤ x) : LC (1.02 * v) (A.rd x) x := by
  have h0 : 0 < x := lt_of_lt_of_le (by positivity) hx
  have := S.rel (x := x) (by rwa [abs_of_pos h0])
  rw [abs_of_pos h0] at this
  exact LC.of_rel h0 (by linarith [S.v_le]) this

theorem not_tiny {ε x y : ℝ} (h : LC ε x y) (he : ε ≤ 1 / 100) (hy : 1 / 10 ^ 100 ≤ y) : 1 / 10 ^ 250 ≤ x := by
  have := (h.half he).1
  have e : (1 : ℝ) / 10 ^ 250 = 1 / 10 ^ 100 * (1 / 10 ^ 150) := by norm_num
  rw [e]
  have h1 : (1 : ℝ) / 10 ^ 150 ≤ 1 / 2 := by norm_num
  have h2 : (0 : ℝ) < 1 / 10 ^ 100 := by positivity
  nlinarith

/-- A computed value, rounded. -/
theorem round (S : Setting A F u v η) {ε x y : ℝ} (h : LC ε x y) (he : ε ≤ 1 / 100) (hy : 1 / 10 ^ 100 ≤ y) :
    LC (ε + 1.02 * v) (A.rd x) y := by
  rw [add_comm]
  exact (S.rd (not_tiny h he hy)).trans h

theorem pow (S : Setting A F u v η) (x y : ℝ) (hx : 0 < x) (h : 1 / 10 ^ 250 ≤ x ^ y) :
    LC (1.02 * v) (F.pow x y) (x ^ y) := by
  have := S.lib.pow x y hx
  rw [max_eq_left (S.η_le.trans h)] at this
  exact LC.of_rel (Real.rpow_pos_of_pos hx y) (by linarith [S.v_le]) this

theorem sqrt (S : Setting A F u v η) (x : ℝ) (hx : 0 < x) (h : 1 / 10 ^ 250 ≤ Real.sqrt x) :
    LC (1.02 * v) (F.sqrt x) (Real.sqrt x) := by
  have := S.lib.sqrt x hx.le
  rw [max_eq_left (S.η_le.trans h)] at this
  exact LC.of_rel (Real.sqrt_pos.2 hx) (by linarith [S.v_le]) this

theorem exp (S : Setting A F u v η) (x : ℝ) : |F.exp x - Real.exp x| ≤ v * Real.exp x + v * (1 / 10 ^ 250) := by
  refine (S.lib.exp x).trans ?_
  have hv := S.v_nonneg
  have h1 : max (Real.exp x) η ≤ Real.exp x + 1 / 10 ^ 250 :=
    max_le (by have : (0 : ℝ) < 1 / 10 ^ 250 := by positivity
               linarith) (by linarith [S.η_le, Real.exp_pos x])
  calc _ ≤ v * (Real.exp x + 1 / 10 ^ 250) := mul_le_mul_of_nonneg_left h1 hv
    _ = _ := by ring

end Setting
end
end TNS
