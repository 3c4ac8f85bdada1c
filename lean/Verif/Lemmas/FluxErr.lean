import Verif.Spec.RoundedFlux
import Verif.Lemmas.ProfileErr
import Mathlib.Analysis.SpecialFunctions.Trigonometric.Bounds
/-
Absolute errors relative to a bound of the magnitude, for C101.
-/

set_option autoImplicit false

namespace TNS
open Spec
noncomputable section

/-- `x'` is `x` up to `e v M`, and `M` bounds `x`. -/
structure MagErr (v e M x' x : ℝ) : Prop where
  err : |x' - x| ≤ e * M * v
  bound : |x| ≤ M

namespace MagErr
variable {v e f M N x x' y y' : ℝ}

theorem nonneg (h : MagErr v e M x' x) : 0 ≤ M := (abs_nonneg _).trans h.bound

theorem weaken (h : MagErr v e M x' x) (he : e ≤ f) (hM : M ≤ N) (he0 : 0 ≤ f) (hv : 0 ≤ v) : MagErr v f N x' x := by
  refine ⟨h.err.trans (mul_le_mul_of_nonneg_right ?_ hv), h.bound.trans hM⟩
  exact (mul_le_mul_of_nonneg_right he h.nonneg).trans (mul_le_mul_of_nonneg_left hM he0)

theorem err_le (h : MagErr v e M x' x) (he : e ≤ f) (hv : 0 ≤ v) : MagErr v f M x' x :=
  ⟨h.err.trans (mul_le_mul_of_nonneg_right (mul_le_mul_of_nonneg_right he h.nonneg) hv), h.bound⟩

theorem exact (h : |x| ≤ M) : MagErr v 0 M x x := ⟨by simp, h⟩

theorem rd {A : Arith} {u : ℝ} (hA : StandardModel A u) (huv : u ≤ v) (hv : v ≤ 1 / 10 ^ 5) (he : 0 ≤ e)
    (h : MagErr v e M x' x) : MagErr v (1.001 * e + 1) M (A.rd x') x := by
  have v0 := hA.u_nonneg.trans huv
  refine ⟨(rd_absv hA huv h.err h.bound).trans ?_, h.bound⟩
  have k : 0 ≤ e * M * v := by have := h.nonneg; positivity
  nlinarith

theorem mul (hv0 : 0 ≤ v) (hv : v ≤ 1 / 1000) (he : 0 ≤ e) (hf : 0 ≤ f) (h : MagErr v e M x' x) (g : MagErr v f N y' y) :
    MagErr v (e + f + e * f / 1000) (M * N) (x' * y') (x * y) := by
  have m0 := h.nonneg
  have n0 := g.nonneg
  refine ⟨?_, by rw [abs_mul]; exact mul_le_mul h.bound g.bound (abs_nonneg _) m0⟩
  have y1 : |y'| ≤ N + f * N * v := by
    rw [show y' = y + (y' - y) by ring]
    exact (abs_add_le _ _).trans (add_le_add g.bound g.err)
  rw [show x' * y' - x * y = (x' - x) * y' + x * (y' - y) by ring]
  refine (abs_add_le _ _).trans ?_
  rw [abs_mul, abs_mul]
  have k1 : |x' - x| * |y'| ≤ e * M * v * (N + f * N * v) := mul_le_mul h.err y1 (abs_nonneg _) (by positivity)
  have k2 : |x| * |y' - y| ≤ M * (f * N * v) := mul_le_mul h.bound g.err (abs_nonneg _) m0
  have k3 : e * f * (M * N) * v * v ≤ e * f * (M * N) * v * (1 / 1000) := mul_le_mul_of_nonneg_left hv (by positivity)
  nlinarith

theorem add (h : MagErr v e M x' x) (g : MagErr v e N y' y) : MagErr v e (M + N) (x' + y') (x + y) := by
  refine ⟨?_, (abs_add_le _ _).trans (add_le_add h.bound g.bound)⟩
  rw [show x' + y' - (x + y) = (x' - x) + (y' - y) by ring]
  refine (abs_add_le _ _).trans ?_
  linarith [h.err, g.err]

theorem neg (h : MagErr v e M x' x) : MagErr v e M (-x') (-x) :=
  ⟨by rw [show -x' - -x = -(x' - x) by ring, abs_neg]; exact h.err, by rw [abs_neg]; exact h.bound⟩

theorem sub (h : MagErr v e M x' x) (g : MagErr v e N y' y) : MagErr v e (M + N) (x' - y') (x - y) := by
  rw [sub_eq_add_neg, sub_eq_add_neg]
  exact h.add g.neg

theorem sin {G : TrigLib} (hG : AccurateTrig G v) (hv0 : 0 ≤ v) (h : MagErr v e M x' x) :
    MagErr v (e * M + 1) 1 (G.sin x') (Real.sin x) := by
  refine ⟨?_, Real.abs_sin_le_one x⟩
  rw [show G.sin x' - Real.sin x = (G.sin x' - Real.sin x') + (Real.sin x' - Real.sin x) by ring]
  refine (abs_add_le _ _).trans ?_
  have k1 : v * |Real.sin x'| ≤ v * 1 := mul_le_mul_of_nonneg_left (Real.abs_sin_le_one _) hv0
  have k2 : |Real.sin x' - Real.sin x| ≤ |x' - x| := Real.abs_sin_sub_sin_le x' x
  linarith [hG.sin x', h.err]

theorem cos {G : TrigLib} (hG : AccurateTrig G v) (hv0 : 0 ≤ v) (h : MagErr v e M x' x) :
    MagErr v (e * M + 1) 1 (G.cos x') (Real.cos x) := by
  refine ⟨?_, Real.abs_cos_le_one x⟩
  rw [show G.cos x' - Real.cos x = (G.cos x' - Real.cos x') + (Real.cos x' - Real.cos x) by ring]
  refine (abs_add_le _ _).trans ?_
  have k1 : v * |Real.cos x'| ≤ v * 1 := mul_le_mul_of_nonneg_left (Real.abs_cos_le_one _) hv0
  have k2 : |Real.cos x' - Real.cos x| ≤ |x' - x| := Real.abs_cos_sub_cos_le x' x
  linarith [hG.cos x', h.err]

end MagErr

end
end TNS
