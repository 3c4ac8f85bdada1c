import Verif.Lemmas.InterpError
/-
Interpolation in a rounded table, with rounding.
-/

set_option autoImplicit false

namespace TNS
open Spec
noncomputable section

/-- A row and its rounded version. -/
structure RowClose (v : ℝ) (p' p : ℝ × ℝ) : Prop where
  x : |p'.1 - p.1| ≤ 6 * v * p.1
  y : |p'.2 - p.2| ≤ 4 * v * p.2

theorem RowClose.sorted {C : ℕ} {lo cut v : ℝ} (hv0 : 0 ≤ v) (hv : v ≤ 1 / 10 ^ 8) {p q p' q' : ℝ × ℝ}
    (h : SegR C lo cut p q) (hp : RowClose v p' p) (hq : RowClose v q' q) :
    q.1 - p.1 - (q'.1 - p'.1) ≤ (q.1 - p.1) / 100 ∧ (q'.1 - p'.1) - (q.1 - p.1) ≤ (q.1 - p.1) / 100 := by
  have a := abs_le.1 hp.x
  have b := abs_le.1 hq.x
  have := h.gap
  have := h.x_nonneg
  have := h.lt
  have h1 : 6 * v * q.1 ≤ 6 / 10 ^ 8 * q.1 := mul_le_mul_of_nonneg_right (by linarith) (by linarith)
  have h2 : 6 * v * p.1 ≤ 6 / 10 ^ 8 * p.1 := mul_le_mul_of_nonneg_right (by linarith) (by linarith)
  constructor <;> linarith

theorem interp_round {A : Arith} {F : MathLib} {u v η : ℝ} (S : Setting A F u v η) {C : ℕ} (rows : List (ℝ × ℝ))
    (rows' : List (ℝ × ℝ)) (hclose : List.Forall₂ (RowClose v) rows' rows)
    (hch : rows.IsChain (SegR C (1 / 10 ^ 80) 0.95)) (hs : SortedTable rows) (x : ℝ) (hx : 0.98 ≤ x)
    (a a' b b' : ℝ × ℝ) (ha : rows.head? = some a) (hb : rows.getLast? = some b)
    (ha' : rows'.head? = some a') (hb' : rows'.getLast? = some b')
    (h1 : a'.1 ≤ x) (h2 : x ≤ b'.1) :
    ∃ y, a.1 ≤ y ∧ y ≤ b.1 ∧ |x - y| ≤ 6 * v * y ∧
      |npInterpR A rows' x - npInterp rows y| ≤ 18 * v * npInterp rows y := by
  have hv := S.v_nonneg
  have hv1 := S.v_le
  induction rows generalizing rows' a a' with
  | nil => simp at ha
  | cons p l ih =>
    cases hclose with
    | @cons p' _ l' _ hp hl =>
    simp only [List.head?_cons, Option.some.injEq] at ha ha'
    subst ha ha'
    cases l with
    | nil =>
      cases hl
      simp only [List.getLast?_singleton, Option.some.injEq] at hb hb'
      subst hb hb'
      have ex : x = p'.1 := le_antisymm h2 h1
      refine ⟨p.1, le_rfl, le_rfl, by rw [ex]; exact hp.x, ?_⟩
      have := hp.y
      simp only [npInterpR, npInterp]
      refine this.trans ?_
      have h0 : 0 ≤ v * p.2 := by have := (abs_nonneg _).trans this; nlinarith
      nlinarith
    | cons q l =>
      cases hl with
      | @cons q' _ l' _ hq hl =>
      obtain ⟨hseg, hch'⟩ := List.isChain_cons_cons.1 hch
      have hs' := (List.pairwise_cons.1 hs).2
      have hb1 : (q :: l).getLast? = some b := by simpa using hb
      have hb1' : (q' :: l').getLast? = some b' := by simpa using hb'
      have hqb : q.1 ≤ b.1 := by
        have hm := List.mem_of_getLast? hb1
        rcases List.mem_cons.1 hm with rfl | hm
        · exact le_rfl
        · exact ((List.pairwise_cons.1 hs').1 b hm).le
      have hlt := hseg.lt
      by_cases hxq : x < q'.1
      · rw [npInterpR, if_pos hxq]
        by_cases hxp : x ≤ p'.1
        · rw [if_pos hxp]
          have ex : x = p'.1 := le_antisymm hxp h1
          refine ⟨p.1, le_rfl, by linarith, by rw [ex]; exact hp.x, ?_⟩
          rw [npInterp_head p _ hs]
          refine hp.y.trans ?_
          have := mul_nonneg hv hseg.y_nonneg
          nlinarith
        · rw [if_neg hxp]
          push Not at hxp
          obtain ⟨g1, g2⟩ := RowClose.sorted hv hv1 hseg hp hq
          set dx' := q'.1 - p'.1 with hdx'
          have hdx0 : 0 < dx' := by linarith
          set θ := (x - p'.1) / dx' with hθ
          have θ0 : 0 ≤ θ := div_nonneg (by linarith) hdx0.le
          have θ1 : θ ≤ 1 := (div_le_one hdx0).2 (by linarith)
          have ex : x = p'.1 * (1 - θ) + q'.1 * θ := by
            have : θ * dx' = x - p'.1 := by rw [hθ]; field_simp
            rw [hdx'] at this
            linarith
          set y := p.1 * (1 - θ) + q.1 * θ with hy
          have y1 : p.1 ≤ y := by nlinarith
          have y2 : y ≤ q.1 := by nlinarith
          have yx : |x - y| ≤ 6 * v * y := by
            have e : x - y = (p'.1 - p.1) * (1 - θ) + (q'.1 - q.1) * θ := by rw [ex, hy]; ring
            rw [e]
            refine (abs_add_le _ _).trans ?_
            rw [abs_mul, abs_mul, abs_of_nonneg θ0, abs_of_nonneg (by linarith : 0 ≤ 1 - θ)]
            have t1 := mul_le_mul_of_nonneg_right hp.x (by linarith : 0 ≤ 1 - θ)
            have t2 := mul_le_mul_of_nonneg_right hq.x θ0
            refine (add_le_add t1 t2).trans (le_of_eq ?_)
            rw [hy]; ring
          have y0 : 0 ≤ y := by linarith [hseg.x_nonneg]
          have ycut : 0.95 < y := by
            have := (abs_le.1 yx).2
            have : 6 * v * y ≤ 0.01 * y := mul_le_mul_of_nonneg_right (by linarith) y0
            linarith
          have fy : npInterp (p :: q :: l) y = line p q y := npInterp_line p q l hs y y1 y2
          have ely : line p q y = p.2 * (1 - θ) + q.2 * θ := by
            unfold line
            have : q.1 - p.1 ≠ 0 := by linarith
            rw [hy]
            field_simp
            ring
          have elx : line p' q' x = p'.2 * (1 - θ) + q'.2 * θ := by
            unfold line
            rw [← hdx']
            have : dx' ≠ 0 := hdx0.ne'
            rw [hθ]
            field_simp
            ring
          have hlow := hseg.lower y ycut.le y1 y2
          have hG : 0 < line p q y := lt_of_lt_of_le (by positivity) hlow
          have hgg : |line p' q' x - line p q y| ≤ 4 * v * line p q y := by
            have e : line p' q' x - line p q y = (p'.2 - p.2) * (1 - θ) + (q'.2 - q.2) * θ := by rw [elx, ely]; ring
            rw [e]
            refine (abs_add_le _ _).trans ?_
            rw [abs_mul, abs_mul, abs_of_nonneg θ0, abs_of_nonneg (by linarith : 0 ≤ 1 - θ)]
            have t1 := mul_le_mul_of_nonneg_right hp.y (by linarith : 0 ≤ 1 - θ)
            have t2 := mul_le_mul_of_nonneg_right hq.y θ0
            refine (add_le_add t1 t2).trans (le_of_eq ?_)
            rw [ely]; ring
          have hq20 : 0 ≤ q.2 := by
            have := hseg.half (by linarith)
            linarith [hseg.y_nonneg]
          have hp2 := abs_le.1 hp.y
          have hq2 := abs_le.1 hq.y
          have k1 : 4 * v * p.2 ≤ 0.1 * p.2 := mul_le_mul_of_nonneg_right (by linarith) hseg.y_nonneg
          have k2 : 4 * v * q.2 ≤ 0.1 * q.2 := mul_le_mul_of_nonneg_right (by linarith) hq20
          have hhalf := hseg.half (by linarith)
          have hyle := hseg.y_le
          have hp20 := hseg.y_nonneg
          have hgap := hseg.gap
          have hxle := hseg.x_le
          have hxn := hseg.x_nonneg
          have gabs := abs_le.1 hgg
          have k3 : 4 * v * line p q y ≤ 0.1 * line p q y := mul_le_mul_of_nonneg_right (by linarith) hG.le
          have hL := line_round S p' q' x hxp hxq (by linarith) (by linarith) (by linarith) (by linarith)
            (by linarith) (by rw [← hdx']; linarith) (by rw [← hdx']; linarith) (by
              have : (1 : ℝ) / 10 ^ 90 ≤ 0.9 * (1 / 10 ^ 80) := by norm_num
              linarith)
          refine ⟨y, y1, by linarith, yx, ?_⟩
          rw [fy]
          set out := A.rd (A.rd (A.rd (A.rd (q'.2 - p'.2) / A.rd (q'.1 - p'.1)) * A.rd (x - p'.1)) + p'.2)
          have e : out - line p q y = (out - line p' q' x) + (line p' q' x - line p q y) := by ring
          rw [e]
          refine (abs_add_le _ _).trans ?_
          have k4 : 13 * v * line p' q' x ≤ 13 * v * (1.01 * line p q y) := by
            refine mul_le_mul_of_nonneg_left ?_ (by positivity)
            have : 4 * v * line p q y ≤ 0.01 * line p q y := mul_le_mul_of_nonneg_right (by linarith) hG.le
            linarith
          have : 0 ≤ v * line p q y := by positivity
          linarith
      · obtain ⟨y, y1, y2, y3, y4⟩ := ih (q' :: l') (.cons hq hl) hch' hs' q q' rfl hb1 rfl hb1' (not_lt.1 hxq)
        refine ⟨y, by linarith, y2, y3, ?_⟩
        rw [npInterpR, if_neg hxq, npInterp, if_neg (not_lt.2 y1)]
        exact y4

end
end TNS
