import Verif.Props.SensitivityXs
/-
C104: how the profiles react to the flux coordinate.
-/

set_option autoImplicit false

namespace TNS
open Spec
noncomputable section

theorem clamped_close {x x' h : ℝ} (hx : |x' - x| ≤ h) : |clamped x' - clamped x| ≤ h := by
  unfold clamped
  rw [max_comm 0, max_comm 0]
  refine (abs_max_sub_max_le_abs _ _ _).trans ?_
  have := abs_min_sub_min_le_max x' 1 x 1
  rw [sub_self, abs_zero, max_eq_left (abs_nonneg _)] at this
  exact this.trans hx

/-- Powers of numbers in [0, 1]. -/
theorem pow_radius {alpha h a b : ℝ} (ha : 0 < alpha) (a0 : 0 ≤ a) (a1 : a ≤ 1) (b0 : 0 ≤ b) (b1 : b ≤ 1)
    (hd : |a - b| ≤ h) : |a ^ alpha - b ^ alpha| ≤ powLoss alpha h := by
  wlog hab : a ≤ b generalizing a b
  · rw [abs_sub_comm]
    exact this b0 b1 a0 a1 (by rwa [abs_sub_comm]) (le_of_not_ge hab)
  rw [abs_sub_comm, abs_of_nonneg (sub_nonneg.2 hab)] at hd
  rw [abs_sub_comm, abs_of_nonneg (sub_nonneg.2 (Real.rpow_le_rpow a0 hab ha.le))]
  have hh : 0 ≤ h := (sub_nonneg.2 hab).trans hd
  unfold powLoss
  split_ifs with h1
  · rcases b0.eq_or_lt with hb | hb
    · have : a = 0 := le_antisymm (hb ▸ hab) a0
      rw [← hb, this, sub_self]
      positivity
    · have hs : -1 ≤ a / b - 1 := by
        have := div_nonneg a0 hb.le
        linarith
      have B := one_add_mul_self_le_rpow_one_add hs h1
      rw [show (1 : ℝ) + (a / b - 1) = a / b by ring, Real.div_rpow a0 hb.le] at B
      have hp := Real.rpow_pos_of_pos hb alpha
      rw [le_div_iff₀ hp] at B
      have e : (1 + alpha * (a / b - 1)) * b ^ alpha = b ^ alpha - alpha * (b - a) * (b ^ alpha / b) := by
        field_simp
        ring
      rw [e] at B
      have e2 : b ^ alpha / b = b ^ (alpha - 1) := by rw [Real.rpow_sub_one hb.ne']
      have e3 : b ^ (alpha - 1) ≤ 1 := Real.rpow_le_one hb.le b1 (by linarith)
      rw [e2] at B
      have : alpha * (b - a) * b ^ (alpha - 1) ≤ alpha * h * 1 :=
        mul_le_mul (mul_le_mul_of_nonneg_left hd ha.le) e3 (Real.rpow_nonneg hb.le _) (by positivity)
      linarith
  · push Not at h1
    have : b ^ alpha ≤ a ^ alpha + (b - a) ^ alpha := by
      obtain ⟨x, rfl⟩ : ∃ x : NNReal, (x : ℝ) = a := ⟨⟨a, a0⟩, rfl⟩
      obtain ⟨y, hy⟩ : ∃ y : NNReal, (y : ℝ) = b - x := ⟨⟨b - x, sub_nonneg.2 hab⟩, rfl⟩
      rw [← hy, show b = x + y by linarith]
      exact_mod_cast NNReal.rpow_add_le_add_rpow x y ha.le h1.le
    have h2 := Real.rpow_le_rpow (sub_nonneg.2 hab) hd ha.le
    linarith

/-- C104.  Parabolic shape. -/
theorem C104_parabola {core alpha beta x x' h : ℝ} (hc : 0 ≤ core) (ha : 0 < alpha) (hb : 0 < beta) (hx : |x' - x| ≤ h) :
    |parabola core alpha beta x' - parabola core alpha beta x| ≤ core * powLoss alpha (powLoss beta h) := by
  unfold parabola
  rw [← mul_sub, abs_mul, abs_of_nonneg hc]
  refine mul_le_mul_of_nonneg_left ?_ hc
  obtain ⟨c0, c1⟩ := clamped_mem x
  obtain ⟨d0, d1⟩ := clamped_mem x'
  have p := Real.rpow_nonneg c0 beta
  have p' := Real.rpow_nonneg d0 beta
  have q := Real.rpow_le_one c0 c1 hb.le
  have q' := Real.rpow_le_one d0 d1 hb.le
  refine pow_radius ha (by linarith) (by linarith) (by linarith) (by linarith) ?_
  rw [show 1 - clamped x' ^ beta - (1 - clamped x ^ beta) = -(clamped x' ^ beta - clamped x ^ beta) by ring, abs_neg]
  exact pow_radius hb d0 d1 c0 c1 (clamped_close hx)

/-- C104.  Pedestal shape. -/
theorem C104_pedestal {core ped sep alpha beta rp x x' h : ℝ} (hcp : ped ≤ core) (hps : sep ≤ ped) (ha : 0 < alpha)
    (hb : 0 < beta) (hr0 : 0 < rp) (hr1 : rp < 1) (hx : |x' - x| ≤ h) :
    |parabolaOnPedestal core ped sep alpha beta rp x' - parabolaOnPedestal core ped sep alpha beta rp x| ≤
      (core - ped) * powLoss alpha (powLoss beta (h / rp)) + (ped - sep) * (h / (1 - rp)) := by
  have hh := (abs_nonneg _).trans hx
  have d1 : 0 < 1 - rp := by linarith
  have q0 : 0 ≤ h / rp := by positivity
  have w1 : 0 ≤ (core - ped) * powLoss alpha (powLoss beta (h / rp)) :=
    mul_nonneg (by linarith) (powLoss_nonneg ha (powLoss_nonneg hb q0))
  have w2 : 0 ≤ (ped - sep) * (h / (1 - rp)) := mul_nonneg (by linarith) (by positivity)
  have hc := clamped_close hx
  obtain ⟨c0, c1⟩ := clamped_mem x
  obtain ⟨e0, e1⟩ := clamped_mem x'
  unfold parabolaOnPedestal
  generalize clamped x = c at *
  generalize clamped x' = c' at *
  -- the core, up to and including `rp`
  have hcore : ∀ a b : ℝ, 0 ≤ a → a ≤ rp → 0 ≤ b → b ≤ rp → |a - b| ≤ h →
      |(ped + (core - ped) * (1 - (a / rp) ^ beta) ^ alpha) - (ped + (core - ped) * (1 - (b / rp) ^ beta) ^ alpha)| ≤
        (core - ped) * powLoss alpha (powLoss beta (h / rp)) := by
    intro a b a0 a1 b0 b1 hab
    rw [add_sub_add_left_eq_sub, ← mul_sub, abs_mul, abs_of_nonneg (by linarith : 0 ≤ core - ped)]
    refine mul_le_mul_of_nonneg_left ?_ (by linarith)
    have a0' : 0 ≤ a / rp := by positivity
    have b0' : 0 ≤ b / rp := by positivity
    have a1' : a / rp ≤ 1 := (div_le_one hr0).2 a1
    have b1' : b / rp ≤ 1 := (div_le_one hr0).2 b1
    have p := Real.rpow_nonneg a0' beta
    have p' := Real.rpow_nonneg b0' beta
    have q := Real.rpow_le_one a0' a1' hb.le
    have q' := Real.rpow_le_one b0' b1' hb.le
    refine pow_radius ha (by linarith) (by linarith) (by linarith) (by linarith) ?_
    rw [show 1 - (a / rp) ^ beta - (1 - (b / rp) ^ beta) = -((a / rp) ^ beta - (b / rp) ^ beta) by ring, abs_neg]
    refine pow_radius hb a0' a1' b0' b1' ?_
    rw [← sub_div, abs_div, abs_of_pos hr0]
    exact div_le_div_of_nonneg_right hab hr0.le
  have hedge : ∀ a b : ℝ, |a - b| ≤ h →
      |(sep + (ped - sep) * ((1 - a) / (1 - rp))) - (sep + (ped - sep) * ((1 - b) / (1 - rp)))| ≤
        (ped - sep) * (h / (1 - rp)) := by
    intro a b hab
    rw [add_sub_add_left_eq_sub, ← mul_sub, abs_mul, abs_of_nonneg (by linarith : 0 ≤ ped - sep), ← sub_div, abs_div,
      abs_of_pos d1]
    refine mul_le_mul_of_nonneg_left (div_le_div_of_nonneg_right ?_ d1.le) (by linarith)
    rw [show 1 - a - (1 - b) = -(a - b) by ring, abs_neg]
    exact hab
  -- the two parts meet
  have hmeet : ped + (core - ped) * (1 - (rp / rp) ^ beta) ^ alpha = sep + (ped - sep) * ((1 - rp) / (1 - rp)) := by
    rw [div_self hr0.ne', div_self d1.ne', Real.one_rpow, sub_self, Real.zero_rpow ha.ne']
    ring
  obtain ⟨k1, k2⟩ := abs_le.1 hc
  split_ifs with h1 h2 h2
  · exact (hcore _ _ e0 h1.le c0 h2.le hc).trans (by linarith)
  · push Not at h2
    have a := hcore c' rp e0 h1.le hr0.le le_rfl (by rw [abs_le]; constructor <;> linarith)
    have b := hedge rp c (by rw [abs_le]; constructor <;> linarith)
    rw [hmeet] at a
    exact (abs_sub_le _ _ _).trans (add_le_add a b)
  · push Not at h1
    have a := hcore rp c hr0.le le_rfl c0 h2.le (by rw [abs_le]; constructor <;> linarith)
    have b := hedge c' rp (by rw [abs_le]; constructor <;> linarith)
    rw [hmeet] at a
    rw [add_comm ((core - ped) * _)]
    exact (abs_sub_le _ _ _).trans (add_le_add b a)
  · exact (hedge _ _ hc).trans (by linarith)

/-- Below the first abscissa. -/
theorem npInterp_below {K : ℝ} (p : ℝ × ℝ) (l : List (ℝ × ℝ)) (hs : (p :: l).Pairwise fun a b => a.1 ≤ b.1)
    (hl : ∀ a ∈ p :: l, ∀ b ∈ p :: l, |a.2 - b.2| ≤ K * |a.1 - b.1|) {x : ℝ} (hx : x ≤ p.1) :
    npInterp (p :: l) x = p.2 := by
  induction l generalizing p with
  | nil => rfl
  | cons q l ih =>
    have hpq : p.1 ≤ q.1 := (List.pairwise_cons.1 hs).1 q (by simp)
    simp only [npInterp]
    by_cases h1 : x < q.1
    · rw [if_pos h1]
      by_cases h2 : x < p.1
      · rw [if_pos h2]
      · rw [if_neg h2]
        have : x = p.1 := le_antisymm hx (not_lt.1 h2)
        rw [this, sub_self, mul_zero, zero_add]
    · rw [if_neg h1]
      have e : q.1 = p.1 := le_antisymm ((not_lt.1 h1).trans hx) hpq
      rw [ih q (List.pairwise_cons.1 hs).2 (fun a ha b hb => hl a (List.mem_cons_of_mem _ ha) b (List.mem_cons_of_mem _ hb))
        (by rw [e]; exact hx)]
      have := hl q (by simp) p (by simp)
      rw [e, sub_self, abs_zero, mul_zero] at this
      have := abs_nonpos_iff.1 this
      linarith

/-- Linear interpolation of data with slopes up to `K`. -/
theorem npInterp_slope {K : ℝ} (hK : 0 ≤ K) (l : List (ℝ × ℝ)) (hs : l.Pairwise fun a b => a.1 ≤ b.1)
    (hl : ∀ a ∈ l, ∀ b ∈ l, |a.2 - b.2| ≤ K * |a.1 - b.1|) {x y : ℝ} (hxy : x ≤ y) :
    |npInterp l x - npInterp l y| ≤ K * (y - x) := by
  have k0 : 0 ≤ K * (y - x) := mul_nonneg hK (by linarith)
  induction l generalizing x with
  | nil => simpa [npInterp] using k0
  | cons p l ih =>
    cases l with
    | nil => simpa [npInterp] using k0
    | cons q l =>
      have hpq : p.1 ≤ q.1 := (List.pairwise_cons.1 hs).1 q (by simp)
      have hs' := (List.pairwise_cons.1 hs).2
      have hl' : ∀ a ∈ q :: l, ∀ b ∈ q :: l, |a.2 - b.2| ≤ K * |a.1 - b.1| := fun a ha b hb =>
        hl a (List.mem_cons_of_mem _ ha) b (List.mem_cons_of_mem _ hb)
      have hd := hl q (by simp) p (by simp)
      rw [abs_of_nonneg (by linarith : 0 ≤ q.1 - p.1)] at hd
      -- the value on the first segment, at a point moved up to `p`
      have seg : ∀ z : ℝ, z < q.1 → npInterp (p :: q :: l) z =
          (q.2 - p.2) / (q.1 - p.1) * (max z p.1 - p.1) + p.2 := by
        intro z hz
        simp only [npInterp]
        rw [if_pos hz]
        by_cases h2 : z < p.1
        · rw [if_pos h2, max_eq_right h2.le, sub_self, mul_zero, zero_add]
        · rw [if_neg h2, max_eq_left (not_lt.1 h2)]
      have slope : p.1 < q.1 → |(q.2 - p.2) / (q.1 - p.1)| ≤ K := by
        intro h
        rw [abs_div, abs_of_pos (by linarith : 0 < q.1 - p.1), div_le_iff₀ (by linarith)]
        exact hd
      by_cases h1 : x < q.1
      · by_cases h2 : y < q.1
        · rw [seg x h1, seg y h2]
          have e : (q.2 - p.2) / (q.1 - p.1) * (max x p.1 - p.1) + p.2 -
              ((q.2 - p.2) / (q.1 - p.1) * (max y p.1 - p.1) + p.2) =
            (q.2 - p.2) / (q.1 - p.1) * (max x p.1 - max y p.1) := by ring
          rw [e, abs_mul]
          have m := abs_max_sub_max_le_abs x y p.1
          rw [abs_sub_comm x y, abs_of_nonneg (by linarith : 0 ≤ y - x)] at m
          rcases hpq.lt_or_eq with h | h
          · exact mul_le_mul (slope h) m (abs_nonneg _) hK
          · rw [h, sub_self, div_zero, abs_zero, zero_mul]; exact k0
        · push Not at h2
          have e2 : npInterp (p :: q :: l) y = npInterp (q :: l) y := by
            simp only [npInterp]; rw [if_neg (not_lt.2 h2)]
          have i := ih hs' hl' h2 (mul_nonneg hK (by linarith))
          rw [npInterp_below q l hs' hl' le_rfl] at i
          rw [e2, seg x h1]
          have j : |(q.2 - p.2) / (q.1 - p.1) * (max x p.1 - p.1) + p.2 - q.2| ≤ K * (q.1 - x) := by
            rcases hpq.lt_or_eq with h | h
            · have e : (q.2 - p.2) / (q.1 - p.1) * (max x p.1 - p.1) + p.2 - q.2 =
                  (q.2 - p.2) / (q.1 - p.1) * (max x p.1 - q.1) := by
                have : q.1 - p.1 ≠ 0 := by linarith
                field_simp
                ring
              rw [e, abs_mul]
              refine mul_le_mul (slope h) ?_ (abs_nonneg _) hK
              have := max_lt h1 h
              have := le_max_left x p.1
              rw [abs_of_nonpos (by linarith)]
              linarith
            · have : q.2 = p.2 := by
                rw [← h, sub_self, mul_zero] at hd
                have := abs_nonpos_iff.1 hd
                linarith
              rw [this, sub_self, zero_div, zero_mul, zero_add, sub_self, abs_zero]
              exact mul_nonneg hK (by linarith)
          refine (abs_sub_le _ q.2 _).trans ?_
          linarith
      · push Not at h1
        have e1 : ∀ z : ℝ, q.1 ≤ z → npInterp (p :: q :: l) z = npInterp (q :: l) z := by
          intro z hz
          simp only [npInterp]; rw [if_neg (not_lt.2 hz)]
        rw [e1 x h1, e1 y (h1.trans hxy)]
        exact ih hs' hl' hxy k0

end
end TNS
