import Verif.Lemmas.PolyBound
import Verif.Props.Reactivity
import Mathlib.Analysis.SpecialFunctions.Log.Deriv
import Mathlib.Analysis.SpecialFunctions.ExpDeriv
import Mathlib.Analysis.Calculus.Deriv.MeanValue
/-
Where the Bosch-Hale formula rises and falls: the sign of its logarithmic derivative, checked on
intervals with rational bounds.
-/

set_option autoImplicit false

namespace TNS
open Spec Set

/-- Coefficients of the formula as rationals. -/
structure BHCoef where
  A : ℚ
  D : List ℚ
  N : List ℚ

namespace BHCoef

def M (b : BHCoef) : List ℚ := padd b.D (pscale (-1) b.N)

/-- `D M` times the logarithmic derivative of `θ`, times `T`. -/
def S (b : BHCoef) : List ℚ :=
  padd (pmul b.D b.M)
    (0 :: padd (pmul (pderiv b.D) b.M) (pscale (-1) (pmul (pderiv b.M) b.D)))

noncomputable def logTheta (b : BHCoef) (t : ℝ) : ℝ :=
  Real.log t + Real.log (peval b.D t) - Real.log (peval b.M t)

/-- The logarithm of the reactivity, up to a constant. -/
noncomputable def H (b : BHCoef) (t : ℝ) : ℝ :=
  5 / 6 * b.logTheta t - 3 / 2 * Real.log t -
    3 * Real.exp ((Real.log b.A - b.logTheta t) / 3)

theorem hasDerivAt_H (b : BHCoef) (t : ℝ) (ht : 0 < t) (hD : 0 < peval b.D t)
    (hM : 0 < peval b.M t) :
    HasDerivAt b.H (((5 / 6 + Real.exp ((Real.log b.A - b.logTheta t) / 3)) * peval b.S t -
      3 / 2 * (peval b.D t * peval b.M t)) / (t * peval b.D t * peval b.M t)) t := by
  have hL : HasDerivAt b.logTheta (peval b.S t / (t * peval b.D t * peval b.M t)) t := by
    have h := ((Real.hasDerivAt_log ht.ne').add ((hasDerivAt_peval b.D t).log hD.ne')).sub
      ((hasDerivAt_peval b.M t).log hM.ne')
    have e : peval b.S t / (t * peval b.D t * peval b.M t) =
        t⁻¹ + peval (pderiv b.D) t / peval b.D t - peval (pderiv b.M) t / peval b.M t := by
      simp only [S, peval_padd, peval_pmul, peval_pscale, peval_cons]
      push_cast
      field_simp
      ring
    rw [e]
    exact h
  have h := ((hL.const_mul (5 / 6)).sub ((Real.hasDerivAt_log ht.ne').const_mul (3 / 2))).sub
    ((((hL.const_sub (Real.log b.A)).div_const 3).exp).const_mul 3)
  refine h.congr_deriv ?_
  field_simp
  ring

theorem xi_cube (b : BHCoef) (t : ℝ) (hA : 0 < b.A) (ht : 0 < t) (hD : 0 < peval b.D t)
    (hM : 0 < peval b.M t) :
    Real.exp ((Real.log b.A - b.logTheta t) / 3) ^ 3 * (t * peval b.D t) = b.A * peval b.M t := by
  have hA' : (0 : ℝ) < b.A := by exact_mod_cast hA
  rw [← Real.exp_nat_mul]
  have e : ((3 : ℕ) : ℝ) * ((Real.log b.A - b.logTheta t) / 3) = Real.log b.A - b.logTheta t := by
    push_cast; ring
  rw [e]
  unfold logTheta
  have e2 : Real.log b.A - (Real.log t + Real.log (peval b.D t) - Real.log (peval b.M t)) =
      Real.log (b.A * peval b.M t) - Real.log (t * peval b.D t) := by
    rw [Real.log_mul hA'.ne' hM.ne', Real.log_mul ht.ne' hD.ne']; ring
  rw [e2, Real.exp_sub, Real.exp_log (by positivity), Real.exp_log (by positivity)]
  field_simp

/-- Certificate for a rising piece `[p, q]`: `x` is a lower bound of `ξ`. -/
def riseStep (b : BHCoef) (p q x : ℚ) : Bool :=
  decide (0 ≤ p) && decide (0 < b.A) && decide (0 ≤ x) && ppos b.D p q && ppos b.M p q &&
    ppos (padd (pscale b.A b.M) (pscale (-x ^ 3) (0 :: b.D))) p q &&
    ppos (padd (pscale (5 / 6 + x) b.S) (pscale (-3 / 2) (pmul b.D b.M))) p q

/-- Certificate for a falling piece `[p, q]`: `x` is an upper bound of `ξ`. -/
def fallStep (b : BHCoef) (p q x : ℚ) : Bool :=
  decide (0 ≤ p) && decide (0 < b.A) && decide (0 ≤ x) && ppos b.D p q && ppos b.M p q &&
    ppos (padd (pscale (-b.A) b.M) (pscale (x ^ 3) (0 :: b.D))) p q &&
    ppos (padd (pscale (-(5 / 6 + x)) b.S) (pscale (3 / 2) (pmul b.D b.M))) p q

theorem riseStep_sound {b : BHCoef} {p q x : ℚ} (h : b.riseStep p q x = true) (t : ℝ) (ht : 0 < t)
    (h1 : (p : ℝ) ≤ t) (h2 : t ≤ q) :
    0 < peval b.D t ∧ 0 < peval b.M t ∧
    ∃ d, 0 < d ∧ HasDerivAt b.H d t := by
  simp only [riseStep, Bool.and_eq_true, decide_eq_true_eq] at h
  obtain ⟨⟨⟨⟨⟨⟨hp, hA⟩, hx⟩, hD⟩, hM⟩, hX⟩, hQ⟩ := h
  have hD := ppos_sound hD t h1 h2
  have hM := ppos_sound hM t h1 h2
  have hX := ppos_sound hX t h1 h2
  have hQ := ppos_sound hQ t h1 h2
  simp only [peval_padd, peval_pscale, peval_pmul, peval_cons] at hX hQ
  push_cast at hX hQ
  refine ⟨hD, hM, _, ?_, b.hasDerivAt_H t ht hD hM⟩
  have hx' : (0 : ℝ) ≤ x := by exact_mod_cast hx
  have hc := b.xi_cube t hA ht hD hM
  set ξ := Real.exp ((Real.log b.A - b.logTheta t) / 3) with hξ
  have hξ0 : 0 < ξ := Real.exp_pos _
  have hlt : (x : ℝ) < ξ := by
    by_contra hcon
    have h3 : ξ ^ 3 ≤ (x : ℝ) ^ 3 := pow_le_pow_left₀ hξ0.le (not_lt.1 hcon) 3
    have h4 := mul_le_mul_of_nonneg_right h3 (mul_pos ht hD).le
    nlinarith
  have hDM := mul_pos hD hM
  have hS : 0 < peval b.S t := by
    by_contra hcon
    have : (5 / 6 + (x : ℝ)) * peval b.S t ≤ 0 :=
      mul_nonpos_of_nonneg_of_nonpos (by linarith) (not_lt.1 hcon)
    linarith
  refine div_pos ?_ (by positivity)
  nlinarith

theorem fallStep_sound {b : BHCoef} {p q x : ℚ} (h : b.fallStep p q x = true) (t : ℝ) (ht : 0 < t)
    (h1 : (p : ℝ) ≤ t) (h2 : t ≤ q) :
    0 < peval b.D t ∧ 0 < peval b.M t ∧
    ∃ d, d < 0 ∧ HasDerivAt b.H d t := by
  simp only [fallStep, Bool.and_eq_true, decide_eq_true_eq] at h
  obtain ⟨⟨⟨⟨⟨⟨hp, hA⟩, hx⟩, hD⟩, hM⟩, hX⟩, hQ⟩ := h
  have hD := ppos_sound hD t h1 h2
  have hM := ppos_sound hM t h1 h2
  have hX := ppos_sound hX t h1 h2
  have hQ := ppos_sound hQ t h1 h2
  simp only [peval_padd, peval_pscale, peval_pmul, peval_cons] at hX hQ
  push_cast at hX hQ
  refine ⟨hD, hM, _, ?_, b.hasDerivAt_H t ht hD hM⟩
  have hx' : (0 : ℝ) ≤ x := by exact_mod_cast hx
  have hc := b.xi_cube t hA ht hD hM
  set ξ := Real.exp ((Real.log b.A - b.logTheta t) / 3) with hξ
  have hξ0 : 0 < ξ := Real.exp_pos _
  have hlt : ξ < (x : ℝ) := by
    by_contra hcon
    have h3 : (x : ℝ) ^ 3 ≤ ξ ^ 3 := pow_le_pow_left₀ hx' (not_lt.1 hcon) 3
    have h4 := mul_le_mul_of_nonneg_right h3 (mul_pos ht hD).le
    nlinarith
  have hDM := mul_pos hD hM
  refine div_neg_of_neg_of_pos ?_ (by positivity)
  by_cases hS : 0 < peval b.S t
  · nlinarith
  · have : (5 / 6 + ξ) * peval b.S t ≤ 0 :=
      mul_nonpos_of_nonneg_of_nonpos (by linarith) (not_lt.1 hS)
    linarith

/-- Consecutive pieces from `p`. -/
def pieces (step : ℚ → ℚ → ℚ → Bool) : ℚ → List (ℚ × ℚ) → Bool
  | _, [] => true
  | p, (q, x) :: l => step p q x && pieces step q l

def piecesEnd : ℚ → List (ℚ × ℚ) → ℚ
  | p, [] => p
  | _, (q, _) :: l => piecesEnd q l

theorem pieces_cover {step : ℚ → ℚ → ℚ → Bool} {P : ℝ → Prop}
    (hs : ∀ p q x, step p q x = true → ∀ t : ℝ, 0 < t → (p : ℝ) ≤ t → t ≤ q → P t)
    (l : List (ℚ × ℚ)) (hl : l ≠ []) (p : ℚ) (h : pieces step p l = true) (t : ℝ) (ht : 0 < t)
    (h1 : (p : ℝ) ≤ t) (h2 : t ≤ piecesEnd p l) : P t := by
  induction l generalizing p with
  | nil => exact absurd rfl hl
  | cons a l ih =>
    obtain ⟨q, x⟩ := a
    simp only [pieces, Bool.and_eq_true] at h
    by_cases hq : t ≤ q
    · exact hs p q x h.1 t ht h1 hq
    · cases l with
      | nil => exact absurd h2 (by simpa [piecesEnd] using hq)
      | cons b l => exact ih (by simp) q h.2 (not_le.1 hq).le h2

theorem H_strictMono (b : BHCoef) (l : List (ℚ × ℚ)) (hl : l ≠ []) (p : ℚ) (hp : 0 ≤ p)
    (h : pieces b.riseStep p l = true) :
    StrictMonoOn b.H {t | 0 < t ∧ (p : ℝ) ≤ t ∧ t ≤ piecesEnd p l} ∧
    ∀ t : ℝ, 0 < t → (p : ℝ) ≤ t → t ≤ piecesEnd p l → 0 < peval b.D t ∧ 0 < peval b.M t := by
  have hc := fun t ht h1 h2 => pieces_cover (P := fun t => 0 < peval b.D t ∧ 0 < peval b.M t ∧
    ∃ d, 0 < d ∧ HasDerivAt b.H d t) (fun p q x hs t ht h1 h2 => riseStep_sound hs t ht h1 h2)
    l hl p h t ht h1 h2
  refine ⟨?_, fun t ht h1 h2 => ⟨(hc t ht h1 h2).1, (hc t ht h1 h2).2.1⟩⟩
  apply strictMonoOn_of_deriv_pos
  · have : {t : ℝ | 0 < t ∧ (p : ℝ) ≤ t ∧ t ≤ piecesEnd p l} =
        Ioi 0 ∩ Icc (p : ℝ) (piecesEnd p l : ℝ) := by ext t; simp [Set.mem_inter_iff]
    rw [this]
    exact (convex_Ioi 0).inter (convex_Icc _ _)
  · intro t ht
    obtain ⟨_, _, d, _, hd⟩ := hc t ht.1 ht.2.1 ht.2.2
    exact hd.continuousAt.continuousWithinAt
  · intro t ht
    have ht := interior_subset ht
    obtain ⟨_, _, d, h0, hd⟩ := hc t ht.1 ht.2.1 ht.2.2
    rw [hd.deriv]; exact h0

theorem H_strictAnti (b : BHCoef) (l : List (ℚ × ℚ)) (hl : l ≠ []) (p : ℚ) (hp : 0 ≤ p)
    (h : pieces b.fallStep p l = true) :
    StrictAntiOn b.H {t | 0 < t ∧ (p : ℝ) ≤ t ∧ t ≤ piecesEnd p l} ∧
    ∀ t : ℝ, 0 < t → (p : ℝ) ≤ t → t ≤ piecesEnd p l → 0 < peval b.D t ∧ 0 < peval b.M t := by
  have hc := fun t ht h1 h2 => pieces_cover (P := fun t => 0 < peval b.D t ∧ 0 < peval b.M t ∧
    ∃ d, d < 0 ∧ HasDerivAt b.H d t) (fun p q x hs t ht h1 h2 => fallStep_sound hs t ht h1 h2)
    l hl p h t ht h1 h2
  refine ⟨?_, fun t ht h1 h2 => ⟨(hc t ht h1 h2).1, (hc t ht h1 h2).2.1⟩⟩
  apply strictAntiOn_of_deriv_neg
  · have : {t : ℝ | 0 < t ∧ (p : ℝ) ≤ t ∧ t ≤ piecesEnd p l} =
        Ioi 0 ∩ Icc (p : ℝ) (piecesEnd p l : ℝ) := by ext t; simp [Set.mem_inter_iff]
    rw [this]
    exact (convex_Ioi 0).inter (convex_Icc _ _)
  · intro t ht
    obtain ⟨_, _, d, _, hd⟩ := hc t ht.1 ht.2.1 ht.2.2
    exact hd.continuousAt.continuousWithinAt
  · intro t ht
    have ht := interior_subset ht
    obtain ⟨_, _, d, h0, hd⟩ := hc t ht.1 ht.2.1 ht.2.2
    rw [hd.deriv]; exact h0

/-- The Bosch-Hale formula as a constant times `exp H`. -/
theorem boschHale_eq_exp (b : BHCoef) (BG mrc2 C1 C2 C3 C4 C5 C6 C7 t : ℝ)
    (hA : (b.A : ℝ) = BG ^ 2 / 4) (hA0 : 0 < b.A) (hm : 0 < mrc2)
    (hD : peval b.D t = 1 + C3 * t + C5 * t ^ 2 + C7 * t ^ 3)
    (hN : peval b.N t = C2 * t + C4 * t ^ 2 + C6 * t ^ 3) (ht : 0 < t) (hD0 : 0 < peval b.D t)
    (hM0 : 0 < peval b.M t) :
    boschHale BG mrc2 C1 C2 C3 C4 C5 C6 C7 t =
      C1 / 10 ^ 6 * Real.exp (Real.log b.A / 6 - Real.log mrc2 / 2) * Real.exp (b.H t) := by
  have hA' : (0 : ℝ) < b.A := by exact_mod_cast hA0
  have hM : peval b.M t = peval b.D t - peval b.N t := by
    simp only [M, peval_padd, peval_pscale]; push_cast; ring
  have hθ : t / (1 - (C2 * t + C4 * t ^ 2 + C6 * t ^ 3) / (1 + C3 * t + C5 * t ^ 2 + C7 * t ^ 3)) =
      Real.exp (b.logTheta t) := by
    rw [← hD, ← hN, logTheta, Real.exp_sub, Real.exp_add, Real.exp_log ht, Real.exp_log hD0,
      Real.exp_log hM0, hM]
    rw [hM] at hM0
    have : 1 - peval b.N t / peval b.D t = (peval b.D t - peval b.N t) / peval b.D t := by
      field_simp
    rw [this, div_div_eq_mul_div]
  unfold boschHale
  simp only
  rw [hθ]
  have hξ : (BG ^ 2 / (4 * Real.exp (b.logTheta t))) ^ ((1 : ℝ) / 3) =
      Real.exp ((Real.log b.A - b.logTheta t) / 3) := by
    have : BG ^ 2 / (4 * Real.exp (b.logTheta t)) = Real.exp (Real.log b.A - b.logTheta t) := by
      rw [Real.exp_sub, Real.exp_log hA', hA]; field_simp
    rw [this, ← Real.exp_mul]
    congr 1; ring
  rw [hξ]
  have hs : Real.sqrt (Real.exp ((Real.log b.A - b.logTheta t) / 3) / (mrc2 * t ^ 3)) =
      Real.exp (((Real.log b.A - b.logTheta t) / 3 - Real.log mrc2 - 3 * Real.log t) / 2) := by
    have : Real.exp ((Real.log b.A - b.logTheta t) / 3) / (mrc2 * t ^ 3) =
        Real.exp ((Real.log b.A - b.logTheta t) / 3 - Real.log mrc2 - 3 * Real.log t) := by
      rw [Real.exp_sub, Real.exp_sub, Real.exp_log hm]
      have : Real.exp (3 * Real.log t) = t ^ 3 := by
        rw [mul_comm, Real.exp_mul, Real.exp_log ht]; norm_num
      rw [this, div_div]
    rw [this, Real.sqrt_eq_rpow, ← Real.exp_mul]
    congr 1; ring
  rw [hs, mul_assoc, mul_assoc, ← Real.exp_add, ← Real.exp_add, mul_assoc (C1 / 10 ^ 6),
    ← Real.exp_add]
  rw [mul_div_right_comm]
  congr 2
  unfold H
  ring

end BHCoef
end TNS
