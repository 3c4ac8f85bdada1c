import Verif.Props.RoundedReactivity
import Verif.Props.RoundedEnergyGrid
/-
How the published reactivities react to a change of the temperature (used in C100).
-/

set_option autoImplicit false

namespace TNS
open Spec
noncomputable section

theorem term_change {η t t' : ℝ} (h0 : 0 < t) (he : 0 ≤ η) (he1 : η ≤ 1 / 1000) (h : |t' - t| ≤ η * t) :
    |t' ^ 2 - t ^ 2| ≤ 3.1 * η * t ^ 2 ∧ |t' ^ 3 - t ^ 3| ≤ 3.1 * η * t ^ 3 := by
  obtain ⟨a, b⟩ := abs_le.1 h
  have hη : η * η ≤ η * (1 / 1000) := mul_le_mul_of_nonneg_left he1 he
  have u1 : t' ≤ (1 + η) * t := by linarith
  have u0 : (1 - η) * t ≤ t' := by linarith
  have t0 : 0 ≤ (1 - η) * t := mul_nonneg (by linarith) h0.le
  have t'0 : 0 ≤ t' := t0.trans u0
  have p2 : t' ^ 2 ≤ ((1 + η) * t) ^ 2 := pow_le_pow_left₀ t'0 u1 2
  have p3 : t' ^ 3 ≤ ((1 + η) * t) ^ 3 := pow_le_pow_left₀ t'0 u1 3
  have m2 : ((1 - η) * t) ^ 2 ≤ t' ^ 2 := pow_le_pow_left₀ t0 u0 2
  have m3 : ((1 - η) * t) ^ 3 ≤ t' ^ 3 := pow_le_pow_left₀ t0 u0 3
  have hη3 : η * η * η ≤ η * (1 / 1000) := by nlinarith [mul_nonneg he he]
  have hη3' : 0 ≤ η * η * η := by positivity
  have q2 : (1 + η) ^ 2 - 1 ≤ 3.1 * η := by nlinarith
  have q3 : (1 + η) ^ 3 - 1 ≤ 3.1 * η := by
    have : (1 + η) ^ 3 - 1 = 3 * η + 3 * (η * η) + η * η * η := by ring
    linarith
  have n2 : 1 - (1 - η) ^ 2 ≤ 3.1 * η := by nlinarith [mul_nonneg he he]
  have n3 : 1 - (1 - η) ^ 3 ≤ 3.1 * η := by
    have : 1 - (1 - η) ^ 3 = 3 * η - 3 * (η * η) + η * η * η := by ring
    have := mul_nonneg he he
    linarith
  have s2 : 0 ≤ t ^ 2 := by positivity
  have s3 : 0 ≤ t ^ 3 := by positivity
  rw [mul_pow] at p2 p3 m2 m3
  constructor <;> rw [abs_le] <;> constructor
  · nlinarith [mul_le_mul_of_nonneg_right n2 s2]
  · nlinarith [mul_le_mul_of_nonneg_right q2 s2]
  · nlinarith [mul_le_mul_of_nonneg_right n3 s3]
  · nlinarith [mul_le_mul_of_nonneg_right q3 s3]

/-- A cubic without constant term. -/
theorem cubic_change {η t t' : ℝ} (h0 : 0 < t) (he : 0 ≤ η) (he1 : η ≤ 1 / 1000) (h : |t' - t| ≤ η * t) (a b c : ℝ) :
    |t' * (a + t' * (b + t' * c)) - t * (a + t * (b + t * c))| ≤ 3.1 * η * (t * (|a| + t * (|b| + t * |c|))) := by
  obtain ⟨h2, h3⟩ := term_change h0 he he1 h
  have h1 : |t' - t| ≤ 3.1 * η * t := h.trans (by nlinarith)
  have e : t' * (a + t' * (b + t' * c)) - t * (a + t * (b + t * c)) =
    a * (t' - t) + b * (t' ^ 2 - t ^ 2) + c * (t' ^ 3 - t ^ 3) := by ring
  rw [e]
  refine (abs_add_three _ _ _).trans ?_
  rw [abs_mul, abs_mul, abs_mul]
  have m1 := mul_le_mul_of_nonneg_left h1 (abs_nonneg a)
  have m2 := mul_le_mul_of_nonneg_left h2 (abs_nonneg b)
  have m3 := mul_le_mul_of_nonneg_left h3 (abs_nonneg c)
  have e2 : 3.1 * η * (t * (|a| + t * (|b| + t * |c|))) =
    |a| * (3.1 * η * t) + |b| * (3.1 * η * t ^ 2) + |c| * (3.1 * η * t ^ 3) := by ring
  rw [e2]
  linarith

theorem gap_change {η t t' : ℝ} (he : 0 ≤ η) (he1 : η ≤ 1 / 10000) (h : |t' - t| ≤ η * t) (b : BoschHale) (ht : Tame b t) :
    LC (11.5 * η) (1 - b.num t' / b.den t') (1 - b.num t / b.den t) := by
  have h0 := ht.t_pos
  have n1 : |b.num t' - b.num t| ≤ 3.1 * η * absNum b t := cubic_change h0 he (by linarith) h b.c1 b.c3 b.c5
  have d1 : |b.den t' - b.den t| ≤ 3.1 * η * absDen b t := by
    have := cubic_change h0 he (by linarith) h b.c2 b.c4 b.c6
    unfold BoschHale.den absDen
    rw [add_sub_add_left_eq_sub]
    refine this.trans (mul_le_mul_of_nonneg_left (by linarith) (by positivity))
  have hD1 : 1 ≤ absDen b t := by
    unfold absDen
    have : 0 ≤ t * (|b.c2| + t * (|b.c4| + t * |b.c6|)) := by positivity
    linarith
  have n2 : |b.num t| ≤ absNum b t := by
    have := cubic_change (η := 0) (t' := t) h0 le_rfl (by norm_num) (by simp) b.c1 b.c3 b.c5
    unfold BoschHale.num absNum
    have e : t * (b.c1 + t * (b.c3 + t * b.c5)) = b.c1 * t + b.c3 * t ^ 2 + b.c5 * t ^ 3 := by ring
    have e2 : t * (|b.c1| + t * (|b.c3| + t * |b.c5|)) = |b.c1| * t + |b.c3| * t ^ 2 + |b.c5| * t ^ 3 := by ring
    rw [e, e2]
    refine (abs_add_three _ _ _).trans ?_
    rw [abs_mul, abs_mul, abs_mul, abs_of_pos h0, abs_of_pos (pow_pos h0 2), abs_of_pos (pow_pos h0 3)]
  have hd : 0 < b.den t := by linarith [ht.den_le]
  have hg : 0.6 ≤ 1 - b.num t / b.den t := by
    have e : 1 - b.num t / b.den t = (b.den t - b.num t) / b.den t := by field_simp
    rw [e, le_div_iff₀ hd]; exact ht.gap
  set N := b.num t
  set D := b.den t
  set N' := b.num t'
  set D' := b.den t'
  have n3 : |N' - N| ≤ 3.1 * η * D := n1.trans (mul_le_mul_of_nonneg_left ht.num_le (by positivity))
  have n4 : |N| ≤ D := n2.trans ht.num_le
  have d2 : |D' - D| ≤ 3.41 * η * D := d1.trans (by nlinarith [ht.den_le, mul_nonneg he hd.le])
  have hD' : 0.99 * D ≤ D' := by
    have := (abs_le.1 d2).1
    nlinarith
  have hD'p : 0 < D' := by linarith
  have f1 : |N' / D' - N / D| ≤ 6.6 * η := by
    have e : N' / D' - N / D = ((N' - N) * D - N * (D' - D)) / (D' * D) := by
      field_simp; ring
    rw [e, abs_div, abs_of_pos (mul_pos hD'p hd), div_le_iff₀ (mul_pos hD'p hd)]
    have t1 : |(N' - N) * D| ≤ 3.1 * η * D * D := by
      rw [abs_mul, abs_of_pos hd]; exact mul_le_mul_of_nonneg_right n3 hd.le
    have t2 : |N * (D' - D)| ≤ D * (3.41 * η * D) := by
      rw [abs_mul]; exact mul_le_mul n4 d2 (abs_nonneg _) hd.le
    have t3 := abs_sub ((N' - N) * D) (N * (D' - D))
    have t4 : η * (0.99 * D * D) ≤ η * (D' * D) :=
      mul_le_mul_of_nonneg_left (mul_le_mul_of_nonneg_right hD' hd.le) he
    nlinarith [mul_nonneg he (mul_nonneg hd.le hd.le)]
  have g1 : |(1 - N' / D') - (1 - N / D)| ≤ 11.1 * η * (1 - N / D) := by
    rw [show (1 - N' / D') - (1 - N / D) = -(N' / D' - N / D) by ring, abs_neg]
    exact f1.trans (by nlinarith)
  exact (LC.of_rel (by linarith : 0 < 1 - N / D) (by linarith) g1).mono (by linarith)

/-- C100.  The published Bosch-Hale reactivities are well conditioned in the range of the fit: a relative change `η` of
the temperature changes them by at most `240 η`. -/
theorem C100_conditioned {r : Reaction} (hr : hasBoschHale r = true) {η t t' : ℝ} (he : 0 ≤ η) (he1 : η ≤ 1 / 10 ^ 5)
    (h : |t' - t| ≤ η * t) (ht : 0.2 ≤ t) (ht1 : t ≤ 100) (ht' : t' ≤ 100) :
    |publishedReactivity r t' - publishedReactivity r t| ≤ 240 * η * publishedReactivity r t := by
  obtain ⟨b, hb⟩ := boschHale_some hr
  have h0 : 0 < t := lt_of_lt_of_le (by norm_num) ht
  have lt : LC (1.02 * η) t' t := LC.of_rel h0 (by linarith) h
  have h0' := lt.1
  obtain ⟨⟨c1, c2⟩, c3, c4⟩ := table_bounds hb
  have hg := gap_change he (by linarith) h b (tame hb t h0 ht1)
  obtain ⟨x1, x2⟩ := cube_bounds hb t h0 ht1
  rw [← value_of_entry hb t h0 ht1, ← value_of_entry hb t' h0' ht']
  set g' := 1 - b.num t' / b.den t'
  set g := 1 - b.num t / b.den t
  have l1 : LC (12.6 * η) (t' / g') (t / g) := (lt.div hg).mono (by linarith)
  set th' := t' / g'
  set th := t / g
  have bgp : 0 < b.bg ^ 2 := by positivity
  have l2 : LC (12.6 * η) (b.bg ^ 2 / (4 * th')) (b.bg ^ 2 / (4 * th)) :=
    ((LC.refl bgp).div (LC.mul_left (by norm_num : (0 : ℝ) < 4) l1)).mono (by linarith)
  set x' := b.bg ^ 2 / (4 * th')
  set x := b.bg ^ 2 / (4 * th)
  have l3 : LC (4.2 * η) (x' ^ ((1 : ℝ) / 3)) (x ^ ((1 : ℝ) / 3)) :=
    (l2.rpow (p := (1 : ℝ) / 3) (η := 0) (by norm_num) (by simp) le_rfl).mono (by linarith)
  have hch : x ^ ((1 : ℝ) / 3) ≤ 15 := by
    calc x ^ ((1 : ℝ) / 3) ≤ ((15 : ℝ) ^ 3) ^ ((1 : ℝ) / 3) := by
          refine Real.rpow_le_rpow (by linarith) (x2.trans ?_) (by norm_num)
          rw [div_le_iff₀ h0]; norm_num at ht ⊢; linarith
      _ = 15 := by
        rw [show (15 : ℝ) ^ 3 = 15 ^ ((3 : ℕ) : ℝ) by rw [Real.rpow_natCast], ← Real.rpow_mul (by norm_num)]
        norm_num
  set ch' := x' ^ ((1 : ℝ) / 3)
  set ch := x ^ ((1 : ℝ) / 3)
  have l4 : LC (193 * η) (Real.exp (-3 * ch')) (Real.exp (-3 * ch)) := by
    refine LC.exp ?_
    rw [← mul_sub, abs_mul, show |(-3 : ℝ)| = 3 by norm_num]
    have := l3.rel (by linarith)
    have c0 := l3.2.1
    have : 1.02 * (4.2 * η) * ch ≤ 1.02 * (4.2 * η) * 15 := mul_le_mul_of_nonneg_left hch (by positivity)
    linarith
  have l5 : LC (3.06 * η) (b.mrc2 * t' ^ 3) (b.mrc2 * t ^ 3) := by
    have := LC.mul_left c3 ((lt.mul lt).mul lt)
    rw [show t' * t' * t' = t' ^ 3 by ring, show t * t * t = t ^ 3 by ring] at this
    exact this.mono (by linarith)
  have l6 := (LC.mul_left (show 0 < 1e-6 * b.c0 by positivity) l1).mul (l3.div l5).sqrt
  have l7 := (l6.mul l4).mono (show _ ≤ 210 * η by linarith)
  have l8 := l7.rel (by linarith)
  refine l8.trans (mul_le_mul_of_nonneg_right (by linarith) l7.2.1.le)

end
end TNS
