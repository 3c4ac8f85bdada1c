import Verif.Model.Trapezoid
import Mathlib.Tactic.Linarith
import Mathlib.Tactic.Ring
import Mathlib.Tactic.FieldSimp
import Mathlib.Tactic.Positivity
import Mathlib.Algebra.Order.Field.Basic
import Mathlib.Data.List.Basic
/-
Lemmas on the trapezoidal rule.
-/

set_option autoImplicit false
set_option linter.unusedSectionVars false

namespace TNS
variable {K : Type} [Field K] [LinearOrder K] [IsStrictOrderedRing K]

theorem trapezoid_nonneg (l : List (K × K)) (hs : l.Pairwise (fun p q => p.1 < q.1))
    (hp : ∀ p ∈ l, 0 ≤ p.2) : 0 ≤ trapezoid l := by
  induction l with
  | nil => exact le_refl _
  | cons p l ih =>
    cases l with
    | nil => exact le_refl _
    | cons q l =>
      have h1 : p.1 < q.1 := (List.pairwise_cons.1 hs).1 q (by simp)
      have h2 := ih (List.pairwise_cons.1 hs).2 (fun x hx => hp x (List.mem_cons_of_mem _ hx))
      have h3 := hp p (by simp)
      have h4 := hp q (by simp)
      have h5 : 0 ≤ (q.1 - p.1) * (q.2 + p.2) / 2 :=
        div_nonneg (mul_nonneg (by linarith) (by linarith)) (by norm_num)
      simp only [trapezoid]
      linarith

/-- A non-negative density on an increasing grid of at least two points with a non-zero value has a
positive trapezoidal integral. -/
theorem trapezoid_pos (l : List (K × K)) (hs : l.Pairwise (fun p q => p.1 < q.1))
    (hp : ∀ p ∈ l, 0 ≤ p.2) (h2 : 2 ≤ l.length) (hne : ∃ p ∈ l, p.2 ≠ 0) : 0 < trapezoid l := by
  induction l with
  | nil => simp at h2
  | cons p l ih =>
    cases l with
    | nil => simp at h2
    | cons q l =>
      have h1 : p.1 < q.1 := (List.pairwise_cons.1 hs).1 q (by simp)
      have hs' := (List.pairwise_cons.1 hs).2
      have hp' : ∀ x ∈ q :: l, 0 ≤ x.2 := fun x hx => hp x (List.mem_cons_of_mem _ hx)
      have h0 := trapezoid_nonneg (q :: l) hs' hp'
      have h3 := hp p (by simp)
      have h4 := hp q (by simp)
      simp only [trapezoid]
      by_cases hpq : 0 < q.2 + p.2
      · have : 0 < (q.1 - p.1) * (q.2 + p.2) / 2 :=
          div_pos (mul_pos (by linarith) hpq) (by norm_num)
        linarith
      · have e1 : p.2 = 0 := by linarith
        have e2 : q.2 = 0 := by linarith
        obtain ⟨x, hx, hx0⟩ := hne
        rcases List.mem_cons.1 hx with rfl | hx
        · exact absurd e1 hx0
        · have hl : l ≠ [] := by
            rintro rfl
            simp at hx; subst hx; exact hx0 e2
          have := ih hs' hp' (by cases l with | nil => exact absurd rfl hl | cons _ _ => simp)
            ⟨x, hx, hx0⟩
          simp only [e1, e2, add_zero, mul_zero, zero_div, zero_add]
          exact this

theorem trapezoid_scale (l : List (K × K)) (c : K) :
    trapezoid (l.map (fun p => (p.1, c * p.2))) = c * trapezoid l := by
  induction l with
  | nil => simp [trapezoid]
  | cons p l ih =>
    cases l with
    | nil => simp [trapezoid]
    | cons q l =>
      simp only [List.map_cons, trapezoid] at ih ⊢
      rw [ih]; ring

theorem linspace_length (a b : K) (n : ℕ) : (linspace a b n).length = n := by simp [linspace]

theorem linspace_sorted (a b : K) (n : ℕ) (h : a < b) (hn : 2 ≤ n) :
    (linspace a b n).Pairwise (· < ·) := by
  unfold linspace
  rw [List.pairwise_map]
  refine List.pairwise_lt_range.imp ?_
  intro i j hij
  have h2 : (2 : K) ≤ (n : K) := by exact_mod_cast hn
  have h1 : 0 < (b - a) / ((n : K) - 1) := div_pos (by linarith) (by linarith)
  have h3 : (i : K) < (j : K) := by exact_mod_cast hij
  have := mul_lt_mul_of_pos_right h3 h1
  linarith

theorem linspace_mem (a b : K) (n : ℕ) (h : a < b) (hn : 2 ≤ n) (x : K) (hx : x ∈ linspace a b n) :
    a ≤ x ∧ x ≤ b := by
  obtain ⟨i, hi, rfl⟩ := List.mem_map.1 hx
  have hi' := List.mem_range.1 hi
  have h2 : (2 : K) ≤ (n : K) := by exact_mod_cast hn
  have h0 : (0 : K) < (n : K) - 1 := by linarith
  have h1 : 0 ≤ (b - a) / ((n : K) - 1) := (div_pos (by linarith) h0).le
  have hi2 : (i : K) ≤ (n : K) - 1 := by
    have : i + 1 ≤ n := hi'
    have : ((i + 1 : ℕ) : K) ≤ (n : K) := by exact_mod_cast this
    push_cast at this; linarith
  constructor
  · have := mul_nonneg (Nat.cast_nonneg (α := K) i) h1
    linarith
  · have := mul_le_mul_of_nonneg_right hi2 h1
    rw [mul_div_cancel₀ _ h0.ne'] at this
    linarith

theorem linspace_head (a b : K) (n : ℕ) (hn : 1 ≤ n) : (linspace a b n).head? = some a := by
  obtain ⟨m, rfl⟩ := Nat.exists_eq_add_of_le' hn
  simp [linspace, List.range_succ_eq_map]

theorem linspace_last (a b : K) (n : ℕ) (hn : 2 ≤ n) : (linspace a b n).getLast? = some b := by
  obtain ⟨m, rfl⟩ := Nat.exists_eq_add_of_le' (Nat.le_of_succ_le hn)
  have hm : (0 : K) < m := by exact_mod_cast (by omega : 0 < m)
  simp only [linspace, List.range_succ, List.map_append, List.map_cons, List.map_nil,
    List.getLast?_append, List.getLast?_singleton, Option.some_or]
  congr 1
  push_cast
  rw [add_sub_cancel_right, mul_div_cancel₀ _ hm.ne']
  ring

end TNS
