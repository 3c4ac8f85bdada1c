import Verif.Spec.Rounded
import Verif.Props.Rounded
import Mathlib.Analysis.SpecialFunctions.Pow.Real
import Mathlib.Analysis.SpecialFunctions.Log.Basic
import Mathlib.Analysis.SpecialFunctions.Exp
/-
Positive numbers whose logarithms differ by at most `ε`: a calculus of relative errors.
-/

set_option autoImplicit false

namespace TNS
open Spec

/-- `a` and `b` are positive and their logarithms differ by at most `ε`. -/
def LC (ε a b : ℝ) : Prop := 0 < a ∧ 0 < b ∧ |Real.log a - Real.log b| ≤ ε

namespace LC
variable {ε δ a b c d : ℝ}

theorem refl (ha : 0 < a) : LC 0 a a := ⟨ha, ha, by simp⟩

theorem mono (h : LC ε a b) (hd : ε ≤ δ) : LC δ a b := ⟨h.1, h.2.1, h.2.2.trans hd⟩

theorem trans (h : LC ε a b) (h' : LC δ b c) : LC (ε + δ) a c :=
  ⟨h.1, h'.2.1, by
    have := abs_le.1 h.2.2
    have := abs_le.1 h'.2.2
    rw [abs_le]; constructor <;> linarith⟩

theorem mul (h : LC ε a b) (h' : LC δ c d) : LC (ε + δ) (a * c) (b * d) :=
  ⟨mul_pos h.1 h'.1, mul_pos h.2.1 h'.2.1, by
    rw [Real.log_mul h.1.ne' h'.1.ne', Real.log_mul h.2.1.ne' h'.2.1.ne']
    have := abs_le.1 h.2.2
    have := abs_le.1 h'.2.2
    rw [abs_le]; constructor <;> linarith⟩

theorem div (h : LC ε a b) (h' : LC δ c d) : LC (ε + δ) (a / c) (b / d) :=
  ⟨div_pos h.1 h'.1, div_pos h.2.1 h'.2.1, by
    rw [Real.log_div h.1.ne' h'.1.ne', Real.log_div h.2.1.ne' h'.2.1.ne']
    have := abs_le.1 h.2.2
    have := abs_le.1 h'.2.2
    rw [abs_le]; constructor <;> linarith⟩

theorem mul_left (hc : 0 < c) (h : LC ε a b) : LC ε (c * a) (c * b) := by
  have := (LC.refl hc).mul h
  rwa [zero_add] at this

theorem sqrt (h : LC ε a b) : LC (ε / 2) (Real.sqrt a) (Real.sqrt b) :=
  ⟨Real.sqrt_pos.2 h.1, Real.sqrt_pos.2 h.2.1, by
    rw [Real.log_sqrt h.1.le, Real.log_sqrt h.2.1.le]
    have := abs_le.1 h.2.2
    rw [abs_le]; constructor <;> linarith⟩

/-- Powers with slightly different exponents. -/
theorem rpow {p q η Λ : ℝ} (h : LC ε a b) (hq : 0 ≤ q) (hpq : |p - q| ≤ η) (hΛ : |Real.log a| ≤ Λ) :
    LC (η * Λ + q * ε) (a ^ p) (b ^ q) :=
  ⟨Real.rpow_pos_of_pos h.1 _, Real.rpow_pos_of_pos h.2.1 _, by
    rw [Real.log_rpow h.1, Real.log_rpow h.2.1]
    have e : p * Real.log a - q * Real.log b = (p - q) * Real.log a + q * (Real.log a - Real.log b) := by ring
    rw [e]
    refine (abs_add_le _ _).trans (add_le_add ?_ ?_)
    · rw [abs_mul]
      exact mul_le_mul hpq hΛ (abs_nonneg _) ((abs_nonneg _).trans hpq)
    · rw [abs_mul, abs_of_nonneg hq]
      exact mul_le_mul_of_nonneg_left h.2.2 hq⟩

theorem exp (h : |a - b| ≤ ε) : LC ε (Real.exp a) (Real.exp b) :=
  ⟨Real.exp_pos _, Real.exp_pos _, by rwa [Real.log_exp, Real.log_exp]⟩

/-- From a relative error. -/
theorem of_rel (hb : 0 < b) (he : ε ≤ 1 / 100) (h : |a - b| ≤ ε * b) : LC (1.02 * ε) a b := by
  have h0 : 0 ≤ ε := by
    by_contra hn
    push Not at hn
    have := (abs_nonneg _).trans h
    nlinarith
  obtain ⟨h1, h2⟩ := abs_le.1 h
  have ha : 0 < a := by nlinarith
  refine ⟨ha, hb, ?_⟩
  have hr : 0 < a / b := div_pos ha hb
  rw [← Real.log_div ha.ne' hb.ne', abs_le]
  have u1 : a / b ≤ 1 + ε := by rw [div_le_iff₀ hb]; linarith
  have u2 : 1 - ε ≤ a / b := by rw [le_div_iff₀ hb]; linarith
  constructor
  · have := Real.one_sub_inv_le_log_of_pos hr
    have h3 : (a / b)⁻¹ ≤ 1 + 1.02 * ε := by
      rw [inv_le_comm₀ hr (by positivity)]
      refine le_trans ?_ u2
      rw [inv_le_iff_one_le_mul₀ (by positivity)]
      nlinarith
    linarith
  · have := Real.log_le_sub_one_of_pos hr
    linarith

/-- To a relative error. -/
theorem rel (h : LC ε a b) (he : ε ≤ 1 / 100) : |a - b| ≤ 1.02 * ε * b := by
  obtain ⟨ha, hb, h1⟩ := h
  have h0 : 0 ≤ ε := (abs_nonneg _).trans h1
  obtain ⟨h2, h3⟩ := abs_le.1 h1
  have e : a = b * Real.exp (Real.log a - Real.log b) := by
    rw [Real.exp_sub, Real.exp_log ha, Real.exp_log hb]; field_simp
  have u1 : Real.exp (Real.log a - Real.log b) ≤ 1 + 1.02 * ε := by
    refine (Real.exp_le_exp.2 h3).trans ?_
    have := Real.abs_exp_sub_one_sub_id_le (x := ε) (by rw [abs_of_nonneg h0]; linarith)
    have := (abs_le.1 this).2
    nlinarith
  have u2 : 1 - ε ≤ Real.exp (Real.log a - Real.log b) := by
    have := Real.add_one_le_exp (Real.log a - Real.log b)
    linarith
  rw [e, abs_le]
  constructor <;> nlinarith

end LC

/-- One rounding. -/
theorem LC.rd {A : Arith} {u w x : ℝ} (hA : StandardModel A u) (hu : u ≤ 1 / 100) (hw : 1.02 * u ≤ w) (hx : 0 < x) :
    LC w (A.rd x) x := by
  have := hA.rel x
  rw [abs_of_pos hx] at this
  exact (LC.of_rel hx hu this).mono hw

/-- A computed value, rounded. -/
theorem LC.round {A : Arith} {u w ε x y : ℝ} (hA : StandardModel A u) (hu : u ≤ 1 / 100) (hw : 1.02 * u ≤ w)
    (h : LC ε x y) : LC (ε + w) (A.rd x) y := by
  rw [add_comm]
  exact (LC.rd hA hu hw h.1).trans h

end TNS
