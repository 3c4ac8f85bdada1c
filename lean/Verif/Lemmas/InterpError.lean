import Verif.Lemmas.Gradual
import Verif.Lemmas.Interp
/-
Linear interpolation in a table of cross sections: how the value depends on the argument, and what rounding does.
-/

set_option autoImplicit false

namespace TNS
open Spec
noncomputable section

/-- The line through two rows. -/
def line (p q : ℝ × ℝ) (x : ℝ) : ℝ := (q.2 - p.2) / (q.1 - p.1) * (x - p.1) + p.2

/-- Two successive rows of a table: the gap is not small, the value does not halve, and above `cut` the
interpolated value is at least `lo` and its logarithm changes at most `C` times as fast as that of the argument. -/
structure SegR (C : ℕ) (lo cut : ℝ) (p q : ℝ × ℝ) : Prop where
  x_nonneg : 0 ≤ p.1
  y_nonneg : 0 ≤ p.2
  lt : p.1 < q.1
  gap : 1001 * p.1 ≤ 1000 * q.1
  x_le : q.1 ≤ 10 ^ 5
  y_le : p.2 ≤ 1 / 2 ∧ q.2 ≤ 1 / 2
  half : cut < q.1 → p.2 ≤ 2 * q.2
  lower : ∀ x, cut ≤ x → p.1 ≤ x → x ≤ q.1 → lo ≤ line p q x
  up : ∀ x, cut ≤ x → p.1 ≤ x → x ≤ q.1 → (q.2 - p.2) / (q.1 - p.1) * x ≤ C * line p q x
  down : ∀ x, cut ≤ x → p.1 ≤ x → x ≤ q.1 → -((q.2 - p.2) / (q.1 - p.1)) * x ≤ C * line p q x

theorem npInterp_line (p q : ℝ × ℝ) (l : List (ℝ × ℝ)) (hs : SortedTable (p :: q :: l)) (x : ℝ) (h1 : p.1 ≤ x)
    (h2 : x ≤ q.1) : npInterp (p :: q :: l) x = line p q x := by
  have := npInterp_seg [] p q l hs x h1 h2
  rw [List.nil_append] at this
  rw [this]
  unfold line
  ring

theorem line_right {p q : ℝ × ℝ} (h : p.1 < q.1) : line p q q.1 = q.2 := by
  unfold line
  have : q.1 - p.1 ≠ 0 := by linarith
  field_simp
  ring

theorem SegR.pow {C : ℕ} {lo cut : ℝ} {p q : ℝ × ℝ} (h : SegR C lo cut p q) (hlo : 0 < lo) (hc : 0 < cut) {x y : ℝ}
    (hx : cut ≤ x) (hpx : p.1 ≤ x) (hxy : x ≤ y) (hy : y ≤ q.1) :
    line p q y * x ^ C ≤ line p q x * y ^ C ∧ line p q x * x ^ C ≤ line p q y * y ^ C := by
  have hx0 : 0 < x := by linarith
  have lx := h.lower x hx hpx (by linarith)
  have ly := h.lower y (by linarith) (by linarith) hy
  set r := (y - x) / x with hr
  have hr0 : 0 ≤ r := div_nonneg (by linarith) hx0.le
  have ey : y = x * (1 + r) := by rw [hr]; field_simp; ring
  have bern : 1 + (C : ℝ) * r ≤ (1 + r) ^ C := one_add_mul_le_pow (by linarith) C
  have key : x ^ C * (1 + C * r) ≤ y ^ C := by
    rw [ey, mul_pow]; exact mul_le_mul_of_nonneg_left bern (by positivity)
  set s := (q.2 - p.2) / (q.1 - p.1) with hs
  have eL : line p q y = line p q x + s * (y - x) := by unfold line; rw [← hs]; ring
  have u1 := h.up x hx hpx (by linarith)
  have u2 := h.down y (by linarith) (by linarith) hy
  rw [← hs] at u1 u2
  have hxC : 0 < x ^ C := by positivity
  have e3 : s * (y - x) = s * x * r := by rw [ey]; ring
  have a1 : line p q y ≤ line p q x * (1 + C * r) := by
    rw [eL, e3]
    nlinarith [mul_le_mul_of_nonneg_right u1 hr0]
  have a2 : line p q x ≤ line p q y * (1 + C * r) := by
    have e4 : line p q x = line p q y - s * (y - x) := by rw [eL]; ring
    have e5 : -(s * (y - x)) * y = (-s * y) * (y - x) := by ring
    have e6 : -(s * (y - x)) ≤ C * line p q y * r := by
      have hy0 : 0 < y := by linarith
      have : -(s * (y - x)) * y ≤ C * line p q y * r * y := by
        rw [e5]
        have e7 : C * line p q y * r * y = C * line p q y * (y - x) * (1 + r) := by rw [ey]; ring
        rw [e7]
        have b1 : -s * y * (y - x) ≤ C * line p q y * (y - x) := mul_le_mul_of_nonneg_right u2 (by linarith)
        have b2 : 0 ≤ C * line p q y * (y - x) :=
          mul_nonneg (mul_nonneg (by positivity) (by linarith)) (by linarith)
        nlinarith
      exact le_of_mul_le_mul_right this hy0
    rw [e4]
    linarith
  constructor
  · calc line p q y * x ^ C ≤ line p q x * (1 + C * r) * x ^ C := mul_le_mul_of_nonneg_right a1 hxC.le
      _ = line p q x * (x ^ C * (1 + C * r)) := by ring
      _ ≤ _ := mul_le_mul_of_nonneg_left key (by linarith)
  · calc line p q x * x ^ C ≤ line p q y * (1 + C * r) * x ^ C := mul_le_mul_of_nonneg_right a2 hxC.le
      _ = line p q y * (x ^ C * (1 + C * r)) := by ring
      _ ≤ _ := mul_le_mul_of_nonneg_left key (by linarith)

/-- Chaining the inequalities of two neighbouring ranges. -/
theorem pow_chain {C : ℕ} {fx fm fy x m y : ℝ} (hx : 0 < x) (hm : 0 < m) (hy : 0 < y)
    (h1 : fm * x ^ C ≤ fx * m ^ C) (h2 : fy * m ^ C ≤ fm * y ^ C) : fy * x ^ C ≤ fx * y ^ C := by
  have a : fy * m ^ C * x ^ C ≤ fm * y ^ C * x ^ C := mul_le_mul_of_nonneg_right h2 (by positivity)
  have b : fm * x ^ C * y ^ C ≤ fx * m ^ C * y ^ C := mul_le_mul_of_nonneg_right h1 (by positivity)
  have : fy * x ^ C * m ^ C ≤ fx * y ^ C * m ^ C := by linarith
  exact le_of_mul_le_mul_right this (by positivity)

theorem elastic_pow {C : ℕ} {lo cut : ℝ} (hlo : 0 < lo) (hc : 0 < cut) (p : ℝ × ℝ) (l : List (ℝ × ℝ)) (b : ℝ × ℝ)
    (hch : (p :: l).IsChain (SegR C lo cut)) (hs : SortedTable (p :: l)) (hb : (p :: l).getLast? = some b)
    (hl : l ≠ []) (x y : ℝ) (hx : cut ≤ x) (hpx : p.1 ≤ x) (hxy : x ≤ y) (hyb : y ≤ b.1) :
    lo ≤ npInterp (p :: l) x ∧
    npInterp (p :: l) y * x ^ C ≤ npInterp (p :: l) x * y ^ C ∧
    npInterp (p :: l) x * x ^ C ≤ npInterp (p :: l) y * y ^ C := by
  induction l generalizing p x y with
  | nil => exact absurd rfl hl
  | cons q l ih =>
    obtain ⟨hseg, hch'⟩ := List.isChain_cons_cons.1 hch
    have hs' := (List.pairwise_cons.1 hs).2
    have h1 := fun x (h1 : p.1 ≤ x) (h2 : x ≤ q.1) => npInterp_line p q l hs x h1 h2
    have h2 : ∀ x, q.1 ≤ x → npInterp (p :: q :: l) x = npInterp (q :: l) x := by
      intro x hx
      rw [npInterp, if_neg (not_lt.2 hx)]
    have hb' : (q :: l).getLast? = some b := by simpa using hb
    have hx0 : 0 < x := by linarith
    rcases le_or_gt y q.1 with hyq | hyq
    · rw [h1 x hpx (by linarith), h1 y (by linarith) hyq]
      exact ⟨hseg.lower x hx hpx (by linarith), hseg.pow hlo hc hx hpx hxy hyq⟩
    · have hl' : l ≠ [] := by
        rintro rfl
        simp at hb'
        subst hb'
        linarith
      rcases le_or_gt q.1 x with hqx | hqx
      · rw [h2 x hqx, h2 y (by linarith)]
        exact ih q hch' hs' hb' hl' x y hx hqx hxy hyb
      · rw [h1 x hpx hqx.le, h2 y hyq.le]
        obtain ⟨-, b1, b2⟩ := ih q hch' hs' hb' hl' q.1 y (by linarith) le_rfl hyq.le hyb
        obtain ⟨a1, a2⟩ := hseg.pow hlo hc hx hpx hqx.le le_rfl
        rw [npInterp_head q l hs'] at b1 b2
        rw [line_right hseg.lt] at a1 a2
        exact ⟨hseg.lower x hx hpx hqx.le, pow_chain hx0 (by linarith) (by linarith) a1 b1, a2.trans b2⟩

/-- The interpolated value at slightly different arguments. -/
theorem elastic {C : ℕ} {lo cut ε : ℝ} (hlo : 0 < lo) (hc : 0 < cut) (p : ℝ × ℝ) (l : List (ℝ × ℝ)) (b : ℝ × ℝ)
    (hch : (p :: l).IsChain (SegR C lo cut)) (hs : SortedTable (p :: l)) (hb : (p :: l).getLast? = some b)
    (hl : l ≠ []) {x y : ℝ} (h : LC ε x y) (hx : cut ≤ x) (hpx : p.1 ≤ x) (hxb : x ≤ b.1)
    (hy : cut ≤ y) (hpy : p.1 ≤ y) (hyb : y ≤ b.1) :
    LC (C * ε) (npInterp (p :: l) x) (npInterp (p :: l) y) := by
  have fx := (elastic_pow hlo hc p l b hch hs hb hl x x hx hpx le_rfl hxb).1
  have fy := (elastic_pow hlo hc p l b hch hs hb hl y y hy hpy le_rfl hyb).1
  set f := npInterp (p :: l)
  have fx0 : 0 < f x := by linarith
  have fy0 : 0 < f y := by linarith
  refine ⟨fx0, fy0, ?_⟩
  obtain ⟨x0, y0, he⟩ := h
  have logs : ∀ a b s t : ℝ, 0 < a → 0 < b → 0 < s → 0 < t → a * s ^ C ≤ b * t ^ C →
      Real.log a + C * Real.log s ≤ Real.log b + C * Real.log t := by
    intro a b s t ha hb hs ht h
    have := Real.log_le_log (by positivity) h
    rwa [Real.log_mul ha.ne' (by positivity), Real.log_mul hb.ne' (by positivity), Real.log_pow, Real.log_pow] at this
  obtain ⟨e1, e2⟩ := abs_le.1 he
  have hC : (0 : ℝ) ≤ C := Nat.cast_nonneg C
  have m1 := mul_le_mul_of_nonneg_left e1 hC
  have m2 := mul_le_mul_of_nonneg_left e2 hC
  rcases le_total x y with hxy | hxy
  · obtain ⟨-, a1, a2⟩ := elastic_pow hlo hc p l b hch hs hb hl x y hx hpx hxy hyb
    have b1 := logs _ _ _ _ fy0 fx0 x0 y0 a1
    have b2 := logs _ _ _ _ fx0 fy0 x0 y0 a2
    rw [abs_le]
    constructor <;> linarith
  · obtain ⟨-, a1, a2⟩ := elastic_pow hlo hc p l b hch hs hb hl y x hy hpy hxy hxb
    have b1 := logs _ _ _ _ fx0 fy0 y0 x0 a1
    have b2 := logs _ _ _ _ fy0 fx0 y0 x0 a2
    rw [abs_le]
    constructor <;> linarith

set_option maxHeartbeats 1000000 in
/-- Evaluating the line through two rows with rounding. -/
theorem line_round {A : Arith} {F : MathLib} {u v η : ℝ} (S : Setting A F u v η) (p q : ℝ × ℝ) (x : ℝ)
    (hx1 : p.1 < x) (hx2 : x < q.1) (hy : 0 ≤ p.2) (hy1 : p.2 ≤ 1) (hq0 : 0 ≤ q.2) (hq1 : q.2 ≤ 1)
    (hh : p.2 ≤ 3 * q.2) (hd : 1 / 10 ^ 4 ≤ q.1 - p.1) (hd' : q.1 - p.1 ≤ 10 ^ 6) (hg : 1 / 10 ^ 90 ≤ line p q x) :
    |A.rd (A.rd (A.rd (A.rd (q.2 - p.2) / A.rd (q.1 - p.1)) * A.rd (x - p.1)) + p.2) - line p q x| ≤
      13 * v * line p q x := by
  have hv := S.v_nonneg
  have hv1 := S.v_le
  obtain ⟨τ, hτ⟩ : ∃ τ : ℝ, τ = 1 / 10 ^ 250 := ⟨_, rfl⟩
  have err : ∀ x, |A.rd x - x| ≤ v * |x| + v * τ := by intro x; rw [hτ]; exact S.err x
  have hτ0 : 0 < τ := by positivity
  have hτ1 : τ * 10 ^ 150 ≤ 1 / 10 ^ 100 := by rw [hτ]; norm_num
  set dy := q.2 - p.2 with hdy
  set dx := q.1 - p.1 with hdx
  set δ := x - p.1 with hδ
  have hdx0 : 0 < dx := by linarith
  have hδ0 : 0 < δ := by linarith
  have hδ1 : δ ≤ dx := by linarith
  set s0 := dy / dx with hs0
  have hg' : line p q x = s0 * δ + p.2 := rfl
  have ady : |dy| ≤ 1 := abs_le.2 ⟨by linarith, by linarith⟩
  have as0 : |s0| ≤ 10 ^ 4 := by
    rw [hs0, abs_div, abs_of_pos hdx0, div_le_iff₀ hdx0]
    linarith
  -- the slope
  have r1 := err dy
  have r2 := S.rel (x := dx) (by rw [abs_of_pos hdx0]; refine le_trans ?_ hd; norm_num)
  rw [abs_of_pos hdx0] at r2
  set d1 := A.rd dy
  set d2 := A.rd dx
  have d2l : 0.99 * dx ≤ d2 := by have := (abs_le.1 r2).1; nlinarith
  have d2p : 0 < d2 := by nlinarith
  have q1 : |d1 / d2 - s0| ≤ v * (2.03 * |s0| + 2 * 10 ^ 4 * τ) := by
    have e : d1 / d2 - s0 = ((d1 - dy) * dx - dy * (d2 - dx)) / (d2 * dx) := by
      rw [hs0]; field_simp; ring
    rw [e, abs_div, abs_of_pos (mul_pos d2p hdx0), div_le_iff₀ (mul_pos d2p hdx0)]
    have t1 : |(d1 - dy) * dx| ≤ (v * |dy| + v * τ) * dx := by
      rw [abs_mul, abs_of_pos hdx0]; exact mul_le_mul_of_nonneg_right r1 hdx0.le
    have t2 : |dy * (d2 - dx)| ≤ |dy| * (v * dx) := by
      rw [abs_mul]; exact mul_le_mul_of_nonneg_left r2 (abs_nonneg _)
    have t3 := abs_sub ((d1 - dy) * dx) (dy * (d2 - dx))
    have e2 : |dy| = |s0| * dx := by rw [hs0, abs_div, abs_of_pos hdx0]; field_simp
    have t4 : |(d1 - dy) * dx - dy * (d2 - dx)| ≤ v * dx * (2 * |s0| * dx + τ) := by
      refine t3.trans ?_
      refine (add_le_add t1 t2).trans ?_
      rw [e2]
      apply le_of_eq
      ring
    refine t4.trans ?_
    have e3 : v * (2.03 * |s0| + 2 * 10 ^ 4 * τ) * (d2 * dx) = v * dx * ((2.03 * |s0| + 2 * 10 ^ 4 * τ) * d2) := by ring
    rw [e3]
    refine mul_le_mul_of_nonneg_left ?_ (by positivity)
    have b1 : (2.03 * |s0| + 2 * 10 ^ 4 * τ) * (0.99 * dx) ≤ (2.03 * |s0| + 2 * 10 ^ 4 * τ) * d2 :=
      mul_le_mul_of_nonneg_left d2l (by positivity)
    have b2 : τ * (1 / 10 ^ 4) ≤ τ * dx := mul_le_mul_of_nonneg_left hd hτ0.le
    have b3 : 0 ≤ |s0| * dx := by positivity
    nlinarith
  have vτ : 0 ≤ v * τ := by positivity
  have vs : 0 ≤ v * |s0| := by positivity
  have r3 := err (d1 / d2)
  have m3 : |d1 / d2| ≤ 1.01 * |s0| + τ := by
    have e : d1 / d2 = s0 + (d1 / d2 - s0) := by ring
    rw [e]
    refine (abs_add_le _ _).trans ?_
    nlinarith [abs_nonneg s0]
  set s := A.rd (d1 / d2)
  have q2 : |s - s0| ≤ v * (3.05 * |s0| + 3 * 10 ^ 4 * τ) := by
    have e : s - s0 = (s - d1 / d2) + (d1 / d2 - s0) := by ring
    rw [e]
    refine (abs_add_le _ _).trans ?_
    have := mul_le_mul_of_nonneg_left m3 hv
    nlinarith
  have r4 := err δ
  rw [abs_of_pos hδ0] at r4
  set d3 := A.rd δ
  have m4 : |d3| ≤ 1.01 * δ + τ := by
    have e : d3 = δ + (d3 - δ) := by ring
    rw [e]
    refine (abs_add_le _ _).trans ?_
    rw [abs_of_pos hδ0]
    nlinarith
  have hδ2 : δ ≤ 10 ^ 6 := by linarith
  have q3 : |s * d3 - s0 * δ| ≤ v * (4.2 * (|s0| * δ) + 10 ^ 12 * τ) := by
    have e : s * d3 - s0 * δ = (s - s0) * d3 + s0 * (d3 - δ) := by ring
    rw [e]
    refine (abs_add_le _ _).trans ?_
    rw [abs_mul, abs_mul]
    have t1 : |s - s0| * |d3| ≤ v * (3.05 * |s0| + 3 * 10 ^ 4 * τ) * (1.01 * δ + τ) :=
      mul_le_mul q2 m4 (abs_nonneg _) (by positivity)
    have t2 : |s0| * |d3 - δ| ≤ |s0| * (v * δ + v * τ) := mul_le_mul_of_nonneg_left r4 (abs_nonneg _)
    have t3 : (3.05 * |s0| + 3 * 10 ^ 4 * τ) * (1.01 * δ + τ) + |s0| * (δ + τ) ≤ 4.2 * (|s0| * δ) + 10 ^ 12 * τ := by
      have b1 : |s0| * τ ≤ 10 ^ 4 * τ := mul_le_mul_of_nonneg_right as0 hτ0.le
      have b2 : τ * δ ≤ τ * 10 ^ 6 := mul_le_mul_of_nonneg_left hδ2 hτ0.le
      have b3 : τ * τ ≤ τ * 1 := mul_le_mul_of_nonneg_left (by rw [hτ]; norm_num) hτ0.le
      have b4 : 0 ≤ |s0| * δ := by positivity
      nlinarith
    have t4 := mul_le_mul_of_nonneg_left t3 hv
    nlinarith
  have r5 := err (s * d3)
  have aP : |s0 * δ| = |s0| * δ := by rw [abs_mul, abs_of_pos hδ0]
  have m5 : |s * d3| ≤ 1.01 * (|s0| * δ) + 10 ^ 5 * τ := by
    have e : s * d3 = s0 * δ + (s * d3 - s0 * δ) := by ring
    rw [e]
    refine (abs_add_le _ _).trans ?_
    rw [aP]
    have : 0 ≤ |s0| * δ := by positivity
    nlinarith
  set P := A.rd (s * d3)
  have q4 : |P - s0 * δ| ≤ v * (5.3 * (|s0| * δ) + 2 * 10 ^ 12 * τ) := by
    have e : P - s0 * δ = (P - s * d3) + (s * d3 - s0 * δ) := by ring
    rw [e]
    refine (abs_add_le _ _).trans ?_
    have := mul_le_mul_of_nonneg_left m5 hv
    have : 0 ≤ v * (|s0| * δ) := by positivity
    nlinarith
  -- the total
  have hW : |s0| * δ ≤ 2 * line p q x := by
    have eθ : |s0| * δ = |dy| * (δ / dx) := by rw [hs0, abs_div, abs_of_pos hdx0]; ring
    have eθ' : s0 * δ = dy * (δ / dx) := by rw [hs0]; ring
    have θ0 : 0 ≤ δ / dx := by positivity
    have θ1 : δ / dx ≤ 1 := (div_le_one hdx0).2 hδ1
    rw [eθ, hg', eθ']
    rcases le_total 0 dy with h | h
    · rw [abs_of_nonneg h]
      have : 0 ≤ dy * (δ / dx) := mul_nonneg h θ0
      linarith
    · rw [abs_of_nonpos h]
      have : -dy * (δ / dx) ≤ -dy := mul_le_of_le_one_right (by linarith) θ1
      have : (dy) * (δ / dx) = -(-dy * (δ / dx)) := by ring
      linarith
  set g := line p q x
  have hg0 : 0 < g := lt_of_lt_of_le (by positivity) hg
  have hτg : 10 ^ 13 * τ ≤ g / 100 := by
    have : (10 : ℝ) ^ 13 * τ ≤ 1 / 10 ^ 90 / 100 := by rw [hτ]; norm_num
    linarith
  have q5 : |(P + p.2) - g| ≤ v * (10.7 * g) := by
    have e : (P + p.2) - g = P - s0 * δ := by rw [hg']; ring
    rw [e]
    refine q4.trans (mul_le_mul_of_nonneg_left ?_ hv)
    linarith
  have r6 := err (P + p.2)
  have m6 : |P + p.2| ≤ 1.01 * g := by
    have e : P + p.2 = g + ((P + p.2) - g) := by ring
    rw [e]
    refine (abs_add_le _ _).trans ?_
    rw [abs_of_pos hg0]
    nlinarith
  have e : A.rd (P + p.2) - g = (A.rd (P + p.2) - (P + p.2)) + ((P + p.2) - g) := by ring
  rw [e]
  refine (abs_add_le _ _).trans ?_
  have := mul_le_mul_of_nonneg_left m6 hv
  have : v * τ ≤ v * (g / 100) := mul_le_mul_of_nonneg_left (by linarith) hv
  nlinarith

end
end TNS
