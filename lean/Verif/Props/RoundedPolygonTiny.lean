import Verif.Props.RoundedPolygonDot
import Verif.Props.RoundedFluxRejects
/-
C103: a surface of a nanometre, in binary64.
-/

set_option autoImplicit false

namespace TNS
open Spec
noncomputable section

/-- Numbers of at most 53 binary digits are not rounded. -/
theorem round53_exact (x : ℝ) (k : ℕ) (m : ℤ) (h : x * 2 ^ k = m) (hm : |m| < 2 ^ 53) : round53 x = x := by
  by_cases x0 : x = 0
  · subst x0; simp [round53]
  have xp : 0 < |x| := abs_pos.2 x0
  set L := Int.log 2 |x| with hL
  have low : (2 : ℝ) ^ L ≤ |x| := by
    have := Int.zpow_log_le_self (b := 2) (by norm_num) xp
    exact_mod_cast this
  have e1 : |x| = |(m : ℝ)| * (2 : ℝ) ^ (-(k : ℤ)) := by
    rw [← h, abs_mul, abs_of_pos (show (0 : ℝ) < 2 ^ k by positivity), zpow_neg, zpow_natCast]
    field_simp
  have up : |x| < (2 : ℝ) ^ ((53 : ℤ) - k) := by
    rw [e1, sub_eq_add_neg, zpow_add₀ (by norm_num)]
    have : |(m : ℝ)| < (2 : ℝ) ^ (53 : ℤ) := by
      have : ((|m| : ℤ) : ℝ) < ((2 ^ 53 : ℤ) : ℝ) := Int.cast_lt.2 hm
      rw [Int.cast_abs] at this
      refine this.trans_le (le_of_eq ?_)
      norm_num
    exact mul_lt_mul_of_pos_right this (by positivity)
  have hk : L < 53 - k := by
    by_contra c
    have := zpow_le_zpow_right₀ (show (1 : ℝ) ≤ 2 by norm_num) (not_lt.1 c)
    linarith
  obtain ⟨j, hj⟩ : ∃ j : ℕ, (j : ℤ) = -(k : ℤ) - (L - 52) := ⟨(-(k : ℤ) - (L - 52)).toNat, by omega⟩
  have q : x / (2 : ℝ) ^ (L - 52) = ((m * 2 ^ j : ℤ) : ℝ) := by
    push_cast
    rw [← h, ← zpow_natCast (2 : ℝ) k, ← zpow_natCast (2 : ℝ) j, hj, mul_assoc, ← zpow_add₀ (by norm_num),
      div_eq_mul_inv, ← zpow_neg]
    congr 2
    omega
  unfold round53
  rw [← hL, q, round_intCast, ← q]
  field_simp

theorem nano_rep_0 : round53 (1 / 1073741824) = 1 / 1073741824 := round53_exact _ 30 1 (by norm_num) (by norm_num)
theorem nano_rep_1 : round53 (2) = 2 := round53_exact _ 0 2 (by norm_num) (by norm_num)
theorem nano_rep_2 : round53 (1 / 536870912) = 1 / 536870912 := round53_exact _ 29 1 (by norm_num) (by norm_num)
theorem nano_rep_3 : round53 (-(1 / 1073741824)) = -(1 / 1073741824) := round53_exact _ 30 (-1) (by norm_num) (by norm_num)
theorem nano_rep_4 : round53 (2147483649 / 1073741824) = 2147483649 / 1073741824 := round53_exact _ 30 2147483649 (by norm_num) (by norm_num)
theorem nano_rep_5 : round53 (-(2147483649 / 1152921504606846976)) = -(2147483649 / 1152921504606846976) := round53_exact _ 60 (-2147483649) (by norm_num) (by norm_num)
theorem nano_rep_6 : round53 (-(1 / 1152921504606846976)) = -(1 / 1152921504606846976) := round53_exact _ 60 (-1) (by norm_num) (by norm_num)
theorem nano_rep_7 : round53 (0) = 0 := round53_exact _ 0 0 (by norm_num) (by norm_num)
theorem nano_rep_8 : round53 (1) = 1 := round53_exact _ 0 1 (by norm_num) (by norm_num)
theorem nano_rep_9 : round53 (1073741825 / 1073741824) = 1073741825 / 1073741824 := round53_exact _ 30 1073741825 (by norm_num) (by norm_num)
theorem nano_rep_10 : round53 (3221225473 / 1073741824) = 3221225473 / 1073741824 := round53_exact _ 30 3221225473 (by norm_num) (by norm_num)
theorem nano_rep_11 : round53 (2147483649 / 536870912) = 2147483649 / 536870912 := round53_exact _ 29 2147483649 (by norm_num) (by norm_num)
theorem nano_rep_13 : round53 (1610612737 / 536870912) = 1610612737 / 536870912 := round53_exact _ 29 1610612737 (by norm_num) (by norm_num)
theorem nano_rep_14 : round53 (2147483649 / 576460752303423488) = 2147483649 / 576460752303423488 := round53_exact _ 59 2147483649 (by norm_num) (by norm_num)
theorem nano_rep_15 : round53 (2147483649 / 1152921504606846976) = 2147483649 / 1152921504606846976 := round53_exact _ 60 2147483649 (by norm_num) (by norm_num)
theorem nano_rep_16 : round53 (-(1 / 536870912)) = -(1 / 536870912) := round53_exact _ 29 (-1) (by norm_num) (by norm_num)
theorem nano_rep_17 : round53 (1 / 1152921504606846976) = 1 / 1152921504606846976 := round53_exact _ 60 1 (by norm_num) (by norm_num)
theorem nano_rep_18 : round53 (1073741825 / 576460752303423488) = 1073741825 / 576460752303423488 := round53_exact _ 59 1073741825 (by norm_num) (by norm_num)

theorem nano_rep_sq : round53 (1152921506754330625 / 1152921504606846976) = 536870913 / 536870912 := by
  have hl : Int.log 2 |(1152921506754330625 / 1152921504606846976 : ℝ)| = -52 + 52 := by
    rw [abs_of_pos (by norm_num)]
    apply le_antisymm
    · have : Int.log 2 (1152921506754330625 / 1152921504606846976 : ℝ) < 1 := by
        rw [← Int.lt_zpow_iff_log_lt (by norm_num) (by norm_num)]; norm_num
      omega
    · rw [← Int.zpow_le_iff_le_log (by norm_num) (by norm_num)]; norm_num
  rw [round53_at (k := -52) (m := 4503599635759104) hl (by norm_num) (by norm_num)]
  norm_num

/-- A right triangle with sides of a nanometre, one metre from the axis. -/
def nanoTriangle : List (ℝ × ℝ) := [(1, 1), (1073741825 / 1073741824, 1), (1, 1073741825 / 1073741824), (1, 1)]

theorem nano_area : getArea2dR binary64 (leftDot round53) nanoTriangle = 0 := by
  unfold getArea2dR nanoTriangle leftDot leftSum roll
  norm_num [binary64, nano_rep_0, nano_rep_1, nano_rep_2, nano_rep_3, nano_rep_4, nano_rep_5, nano_rep_6, nano_rep_7, nano_rep_8, nano_rep_9, nano_rep_10, nano_rep_11, nano_rep_13, nano_rep_14, nano_rep_15, nano_rep_16, nano_rep_17, nano_rep_18, nano_rep_sq]

theorem nano_ccw : checkCcwR binary64 nanoTriangle := by
  unfold checkCcwR nanoTriangle
  norm_num [edgeSumR, ccwTermR, binary64, nano_rep_0, nano_rep_1, nano_rep_2, nano_rep_3, nano_rep_4, nano_rep_5, nano_rep_6, nano_rep_7, nano_rep_8, nano_rep_9, nano_rep_10, nano_rep_11, nano_rep_13, nano_rep_14, nano_rep_15, nano_rep_16, nano_rep_17, nano_rep_18, nano_rep_sq]

theorem nano_centroid : getCentroid2dR binary64 (leftDot round53) nanoTriangle =
    (1 / 1152921504606846976, 1 / 1152921504606846976) := by
  unfold getCentroid2dR
  simp only [if_pos nano_ccw, nano_area, ne_eq, not_true_eq_false, if_false]
  unfold nanoTriangle
  norm_num [edgeSumR, crossR, binary64, nano_rep_0, nano_rep_1, nano_rep_2, nano_rep_3, nano_rep_4, nano_rep_5, nano_rep_6, nano_rep_7, nano_rep_8, nano_rep_9, nano_rep_10, nano_rep_11, nano_rep_13, nano_rep_14, nano_rep_15, nano_rep_16, nano_rep_17, nano_rep_18, nano_rep_sq]

/-- C103.  The hypothesis on the area cannot be dropped: a closed triangle of exact doubles, all its radii at least 1, and a positive
area, for which binary64 finds the area 0 and a centroid `10⁻¹⁸` from the axis; its volume is then 0. -/
theorem C103_lost : ∃ pts : List (ℝ × ℝ), ExactlyClosed pts ∧ (∀ p ∈ pts, 1 ≤ p.1 ∧ round53 p.1 = p.1 ∧ round53 p.2 = p.2) ∧
    0 < |contour (fun x _ => x) pts| ∧
    1 < contour (fun x _ => x ^ 2) pts / 2 / contour (fun x _ => x) pts ∧
    getArea2dR binary64 (leftDot round53) pts = 0 ∧
    (getCentroid2dR binary64 (leftDot round53) pts).1 ≤ 1 / 10 ^ 18 ∧
    surfaceVolumeR binary64 (leftDot round53) (round53 Real.pi) pts = 0 := by
  refine ⟨nanoTriangle, ⟨by simp [nanoTriangle], by simp [nanoTriangle]⟩, ?_, ?_, ?_, nano_area, ?_, ?_⟩
  · intro p hp
    simp only [nanoTriangle, List.mem_cons, List.not_mem_nil, or_false] at hp
    rcases hp with rfl | rfl | rfl | rfl <;> norm_num [nano_rep_8, nano_rep_9]
  · simp only [nanoTriangle, contour, seg_x]
    norm_num
  · simp only [nanoTriangle, contour, seg_x, seg_xx]
    norm_num
  · rw [nano_centroid]; norm_num
  · unfold surfaceVolumeR
    rw [nano_area]
    norm_num [binary64, nano_rep_7]

end
end TNS
