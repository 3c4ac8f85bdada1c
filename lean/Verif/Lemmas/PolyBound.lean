import Mathlib.Analysis.Calculus.Deriv.Mul
import Mathlib.Analysis.Calculus.Deriv.Add
import Mathlib.Tactic.Ring
import Mathlib.Tactic.Linarith
import Mathlib.Tactic.Positivity
import Mathlib.Data.Rat.Cast.Order
/-
Polynomials with rational coefficients (lowest degree first) and a checker for positivity on an
interval, used for the shape of the Bosch-Hale reactivity.
-/

set_option autoImplicit false

namespace TNS

noncomputable def peval (l : List ℚ) (t : ℝ) : ℝ := l.foldr (fun c a => (c : ℝ) + t * a) 0

@[simp] theorem peval_nil (t : ℝ) : peval [] t = 0 := rfl
@[simp] theorem peval_cons (c : ℚ) (l : List ℚ) (t : ℝ) : peval (c :: l) t = c + t * peval l t := rfl

def padd : List ℚ → List ℚ → List ℚ
  | [], m => m
  | a :: l, [] => a :: l
  | a :: l, b :: m => (a + b) :: padd l m

theorem peval_padd (l m : List ℚ) (t : ℝ) : peval (padd l m) t = peval l t + peval m t := by
  induction l generalizing m with
  | nil => simp [padd]
  | cons a l ih =>
    cases m with
    | nil => simp [padd]
    | cons b m => simp only [padd, peval_cons, ih]; push_cast; ring

def pscale (k : ℚ) (l : List ℚ) : List ℚ := l.map (k * ·)

theorem peval_pscale (k : ℚ) (l : List ℚ) (t : ℝ) : peval (pscale k l) t = k * peval l t := by
  induction l with
  | nil => simp [pscale]
  | cons a l ih =>
    simp only [pscale, List.map_cons, peval_cons] at *
    rw [ih]; push_cast; ring

def pmul : List ℚ → List ℚ → List ℚ
  | [], _ => []
  | a :: l, m => padd (pscale a m) (0 :: pmul l m)

theorem peval_pmul (l m : List ℚ) (t : ℝ) : peval (pmul l m) t = peval l t * peval m t := by
  induction l with
  | nil => simp [pmul]
  | cons a l ih =>
    simp only [pmul, peval_padd, peval_pscale, peval_cons, ih]; push_cast; ring

def pderiv : List ℚ → List ℚ
  | [] => []
  | _ :: l => padd l (0 :: pderiv l)

theorem hasDerivAt_peval (l : List ℚ) (t : ℝ) : HasDerivAt (peval l) (peval (pderiv l) t) t := by
  induction l with
  | nil => exact hasDerivAt_const t (0 : ℝ)
  | cons c l ih =>
    have h := ((hasDerivAt_id t).mul ih).const_add (c : ℝ)
    have e : peval (pderiv (c :: l)) t = 1 * peval l t + id t * peval (pderiv l) t := by
      simp only [pderiv, peval_padd, peval_cons, id]; push_cast; ring
    rw [e]
    exact h

/-- Coefficients of `P(p + s)` as a polynomial in `s`. -/
def pshift (p : ℚ) : List ℚ → List ℚ
  | [] => []
  | c :: l => padd [c] (pmul [p, 1] (pshift p l))

theorem peval_pshift (p : ℚ) (l : List ℚ) (s : ℝ) : peval (pshift p l) s = peval l (p + s) := by
  induction l with
  | nil => rfl
  | cons c l ih =>
    simp only [pshift, peval_padd, peval_pmul, peval_cons, peval_nil, ih]; push_cast; ring

/-- A lower bound on `[0, w]`. -/
def plower (w : ℚ) : List ℚ → ℚ
  | [] => 0
  | c :: l => c + min 0 (w * plower w l)

theorem plower_le (w : ℚ) (l : List ℚ) (s : ℝ) (h0 : 0 ≤ s) (hw : s ≤ w) :
    (plower w l : ℝ) ≤ peval l s := by
  induction l with
  | nil => simp [plower]
  | cons c l ih =>
    simp only [plower, peval_cons]
    push_cast
    refine add_le_add le_rfl ?_
    by_cases hv : 0 ≤ (plower w l : ℝ)
    · exact (min_le_left _ _).trans (mul_nonneg h0 (hv.trans ih))
    · refine (min_le_right _ _).trans ?_
      calc (w : ℝ) * plower w l ≤ s * plower w l :=
            mul_le_mul_of_nonpos_right hw (not_le.1 hv).le
        _ ≤ s * peval l s := mul_le_mul_of_nonneg_left ih h0

/-- Checks that a polynomial is positive on `[p, q]`. -/
def ppos (l : List ℚ) (p q : ℚ) : Bool := decide (0 < plower (q - p) (pshift p l))

theorem ppos_sound {l : List ℚ} {p q : ℚ} (h : ppos l p q = true) (t : ℝ) (h1 : (p : ℝ) ≤ t)
    (h2 : t ≤ q) : 0 < peval l t := by
  have h3 : (0 : ℝ) < (plower (q - p) (pshift p l) : ℝ) := by exact_mod_cast of_decide_eq_true h
  have h4 := plower_le (q - p) (pshift p l) (t - p) (by linarith) (by push_cast; linarith)
  rw [peval_pshift] at h4
  have e : (p : ℝ) + (t - p) = t := by ring
  rw [e] at h4
  linarith

end TNS
