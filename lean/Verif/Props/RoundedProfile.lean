import Verif.Lemmas.ProfileErr
import Verif.Props.RoundedXsSource
/-
C100: profiles and fuel composition survive rounding.
-/

set_option autoImplicit false

namespace TNS
open Spec
noncomputable section

section
variable {A : Arith} {F : MathLib} {u v : ℝ}

/-- C100.  Parabolic profile, away from its zero: the relative error is at most `5 + 5 (1 + α) / (1 - ρ^β)` times the
accuracy `v` of an operation. -/
theorem C100_parabolic (hA : StandardModel A u) (hF : AccurateLib F v) (huv : u ≤ v) {core alpha beta scale : ℝ}
    (hc : 0 < core) (ha : 0 < alpha) (hb : 0 < beta) (hs : 0 < scale) (rho : ℝ)
    (hf : 0 < 1 - clamped rho ^ beta) (hsmall : (5 + 5 * (1 + alpha) / (1 - clamped rho ^ beta)) * v ≤ 1 / 100) :
    ∃ y, (Profile.mk (.parabolic core alpha beta) scale).valueR A F rho = .ok y ∧ 0 < y ∧
      |y - scale * parabola core alpha beta rho| ≤
        (5 + 5 * (1 + alpha) / (1 - clamped rho ^ beta)) * v * (scale * parabola core alpha beta rho) := by
  have v0 := hA.u_nonneg.trans huv
  set f := 1 - clamped rho ^ beta with hfd
  have f1 : f ≤ 1 := by
    have := Real.rpow_nonneg (clamped_mem rho).1 beta
    rw [hfd]; linarith
  have q0 : 0 ≤ (1 + alpha) / f := by positivity
  have q1 : 1 ≤ 1 / f := by rw [le_div_iff₀ hf]; linarith
  have e1 : 5 * (1 + alpha) / f = 5 * (1 / f) + 5 * (alpha * (1 / f)) := by
    field_simp
  have q2 : 0 ≤ alpha * (1 / f) := by positivity
  rw [e1] at hsmall ⊢
  have n1 : 1 / f * v ≤ 1 / 400 := by nlinarith [mul_nonneg q2 v0]
  have hv : v ≤ 1 / 1000 := by nlinarith [mul_nonneg q2 v0]
  have n2 : 0 ≤ 1 / f * v := by positivity
  have n3 : 0 ≤ alpha * (1 / f * v) := by positivity
  have hfe := factor_err hA hF huv hv hb rho
  rw [← hfd] at hfe
  have l1 : LC (4.08 * (1 / f * v)) (parabolicFactorR A F beta rho) f := by
    refine (LC.of_rel hf (show 4 * (1 / f * v) ≤ 1 / 100 by linarith) (hfe.trans (le_of_eq ?_))).mono (by linarith)
    field_simp
  set g := parabolicFactorR A F beta rho with hg
  have hv2 : v ≤ 1 / 100 := by linarith
  have hu2 : u ≤ 1 / 100 := by linarith
  have hw : 1.02 * u ≤ 1.02 * v := by linarith
  have l2 : LC (alpha * (4.08 * (1 / f * v))) (g ^ alpha) (f ^ alpha) :=
    (l1.rpow (p := alpha) (η := 0) ha.le (by simp) le_rfl).mono (by linarith)
  have l3 := (lib_pow hF hv2 g alpha l1.1).trans l2
  have l4 := LC.rd hA hu2 hw hc
  have l5 := LC.round hA hu2 hw (l4.mul l3)
  have l6 := LC.round hA hu2 hw (l5.mul_left hs)
  have ev : parabolicValueR A F core alpha beta rho = A.rd (A.rd core * F.pow g alpha) := by
    unfold parabolicValueR
    rw [← hg, sign_pos l1.1, abs_of_pos l1.1, SignType.coe_one, mul_one]
  have l7 := l6.mono (show _ ≤ 4.08 * v + alpha * (4.08 * (1 / f * v)) by linarith)
  refine ⟨_, rfl, ?_⟩
  rw [ev]
  refine ⟨l7.1, ?_⟩
  have l8 := l7.rel (by nlinarith)
  unfold parabola
  rw [← hfd]
  refine l8.trans (mul_le_mul_of_nonneg_right ?_ (by positivity))
  nlinarith

/-- C100.  Parabolic profile, at every radius: the absolute error is at most `5 v + 3 powLoss` of the value on the axis;
for exponents α ≥ 1 this is `(5 + 12 α) v`. -/
theorem C100_parabolic_edge (hA : StandardModel A u) (hF : AccurateLib F v) (huv : u ≤ v) (hv : v ≤ 1 / 1000)
    {core alpha beta scale : ℝ} (ha : 0 < alpha) (hb : 0 < beta) (hav : alpha * (4 * v) ≤ 1 / 100) (rho : ℝ) :
    ∃ y, (Profile.mk (.parabolic core alpha beta) scale).valueR A F rho = .ok y ∧
      |y - scale * parabola core alpha beta rho| ≤ (5 * v + 3 * powLoss alpha (4 * v)) * |scale * core| := by
  have v0 := hA.u_nonneg.trans huv
  set f := 1 - clamped rho ^ beta with hfd
  have f1 : f ≤ 1 := by
    have := Real.rpow_nonneg (clamped_mem rho).1 beta
    rw [hfd]; linarith
  have f0 : 0 ≤ f := by
    have := Real.rpow_le_one (clamped_mem rho).1 (clamped_mem rho).2 hb.le
    rw [hfd]; linarith
  have hfe := factor_err hA hF huv hv hb rho
  rw [← hfd] at hfe
  set g := parabolicFactorR A F beta rho with hg
  have hh : 0 ≤ 4 * v := by linarith
  have pl := powLoss_nonneg ha hh
  have fp1 : f ^ alpha ≤ 1 := Real.rpow_le_one f0 f1 ha.le
  have fp0 : 0 ≤ f ^ alpha := Real.rpow_nonneg f0 alpha
  have c0 := abs_nonneg core
  obtain ⟨g1, g2⟩ := abs_le.1 hfe
  -- the signed power
  have key : |A.rd (core * ((SignType.sign g : SignType) : ℝ)) * F.pow |g| alpha - core * f ^ alpha| ≤
      (2.1 * v + 2 * powLoss alpha (4 * v)) * |core| := by
    by_cases hg0 : g = 0
    · rw [hg0, sign_zero, SignType.coe_zero, mul_zero, rd_zero' hA, zero_mul, zero_sub, abs_neg, abs_mul, abs_of_nonneg fp0,
        mul_comm]
      have := pow_close ha hav f0 le_rfl (by linarith) (by linarith) (show |f - 0| ≤ 4 * v by
        rw [sub_zero, abs_of_nonneg f0]; rw [hg0] at g1; linarith)
      rw [Real.zero_rpow ha.ne', sub_zero, abs_of_nonneg fp0] at this
      exact mul_le_mul_of_nonneg_right (by linarith) c0
    · have ag : 0 < |g| := abs_pos.2 hg0
      have ag1 : |g| ≤ 1 + 4 * v := by rw [abs_le]; constructor <;> linarith
      have agp : |g| ^ alpha ≤ 1.02 := by
        calc |g| ^ alpha ≤ Real.exp (4 * v) ^ alpha :=
              Real.rpow_le_rpow ag.le (by linarith [Real.add_one_le_exp (4 * v)]) ha.le
          _ = Real.exp (alpha * (4 * v)) := by rw [← Real.exp_mul, mul_comm]
          _ ≤ Real.exp (1 / 100) := Real.exp_le_exp.2 hav
          _ ≤ 1.02 := exp_hundredth
      have agp0 : 0 ≤ |g| ^ alpha := Real.rpow_nonneg ag.le _
      have w1 := hF.pow |g| alpha ag
      have w2 : |F.pow |g| alpha - |g| ^ alpha| ≤ 1.02 * v := w1.trans (by nlinarith)
      have w3 : |F.pow |g| alpha| ≤ 1.03 := by
        have : F.pow |g| alpha = |g| ^ alpha + (F.pow |g| alpha - |g| ^ alpha) := by ring
        rw [this]
        refine (abs_add_le _ _).trans ?_
        rw [abs_of_nonneg agp0]
        linarith
      have sg : |((SignType.sign g : SignType) : ℝ)| = 1 := by
        rcases lt_or_gt_of_ne hg0 with h | h
        · rw [sign_neg h]; simp
        · rw [sign_pos h]; simp
      have s1 : |((SignType.sign g : SignType) : ℝ) * |g| ^ alpha - f ^ alpha| ≤ 2 * powLoss alpha (4 * v) := by
        rcases lt_or_gt_of_ne hg0 with h | h
        · rw [sign_neg h, SignType.coe_neg_one, neg_one_mul, abs_of_neg h, ← neg_add', abs_neg]
          rw [abs_of_nonneg (add_nonneg (Real.rpow_nonneg (by linarith) _) fp0)]
          unfold powLoss
          split_ifs with h1
          · have n1 := Real.rpow_le_rpow_of_exponent_ge (x := -g) (by linarith) (by linarith) h1
            have n2 := Real.rpow_le_rpow_of_exponent_ge' f0 f1 zero_le_one h1
            rw [Real.rpow_one] at n1 n2
            nlinarith
          · have n1 := Real.rpow_le_rpow (x := -g) (y := 4 * v) (by linarith) (by linarith) ha.le
            have n2 := Real.rpow_le_rpow (x := f) (y := 4 * v) f0 (by linarith) ha.le
            linarith
        · rw [sign_pos h, SignType.coe_one, one_mul, abs_of_pos h]
          have := pow_close ha hav h.le f0 (by linarith) (by linarith) hfe
          linarith
      have s2 : |((SignType.sign g : SignType) : ℝ) * F.pow |g| alpha - f ^ alpha| ≤
          1.02 * v + 2 * powLoss alpha (4 * v) := by
        have e : ((SignType.sign g : SignType) : ℝ) * F.pow |g| alpha - f ^ alpha =
          ((SignType.sign g : SignType) : ℝ) * (F.pow |g| alpha - |g| ^ alpha) +
          (((SignType.sign g : SignType) : ℝ) * |g| ^ alpha - f ^ alpha) := by ring
        rw [e]
        refine (abs_add_le _ _).trans ?_
        rw [abs_mul, sg, one_mul]
        linarith
      have r1 : |A.rd (core * ((SignType.sign g : SignType) : ℝ)) - core * ((SignType.sign g : SignType) : ℝ)| ≤
          v * |core| := by
        refine (hA.rel _).trans ?_
        rw [abs_mul, sg, mul_one]
        exact mul_le_mul_of_nonneg_right huv c0
      have e : A.rd (core * ((SignType.sign g : SignType) : ℝ)) * F.pow |g| alpha - core * f ^ alpha =
        (A.rd (core * ((SignType.sign g : SignType) : ℝ)) - core * ((SignType.sign g : SignType) : ℝ)) * F.pow |g| alpha +
        core * (((SignType.sign g : SignType) : ℝ) * F.pow |g| alpha - f ^ alpha) := by ring
      rw [e]
      refine (abs_add_le _ _).trans ?_
      rw [abs_mul, abs_mul]
      have m1 := mul_le_mul r1 w3 (abs_nonneg _) (by positivity)
      have m2 := mul_le_mul_of_nonneg_left s2 c0
      nlinarith [mul_nonneg v0 c0]
  have b1 : |core * f ^ alpha| ≤ |core| := by
    rw [abs_mul, abs_of_nonneg fp0]; exact mul_le_of_le_one_right c0 fp1
  have k2 := rd_absv hA huv key b1
  have k3 : |scale * A.rd (A.rd (core * ((SignType.sign g : SignType) : ℝ)) * F.pow |g| alpha) -
      scale * (core * f ^ alpha)| ≤ |scale| * ((1 + v) * ((2.1 * v + 2 * powLoss alpha (4 * v)) * |core|) + v * |core|) := by
    rw [← mul_sub, abs_mul]
    exact mul_le_mul_of_nonneg_left k2 (abs_nonneg _)
  have k4 := rd_absv hA huv k3 (show |scale * (core * f ^ alpha)| ≤ |scale| * |core| by
    rw [abs_mul]; exact mul_le_mul_of_nonneg_left b1 (abs_nonneg _))
  refine ⟨_, rfl, ?_⟩
  have ev : parabolicValueR A F core alpha beta rho =
      A.rd (A.rd (core * ((SignType.sign g : SignType) : ℝ)) * F.pow |g| alpha) := rfl
  rw [ev]
  unfold parabola
  rw [← hfd]
  refine k4.trans ?_
  rw [abs_mul]
  have sc : 0 ≤ |scale| * |core| := by positivity
  have : (1 + v) * (|scale| * ((1 + v) * ((2.1 * v + 2 * powLoss alpha (4 * v)) * |core|) + v * |core|)) +
      v * (|scale| * |core|) =
      ((1 + v) * ((1 + v) * (2.1 * v + 2 * powLoss alpha (4 * v)) + v) + v) * (|scale| * |core|) := by ring
  rw [this]
  refine mul_le_mul_of_nonneg_right ?_ sc
  generalize powLoss alpha (4 * v) = P at pl ⊢
  have a1 : (1 + v) * (2.1 * v + 2 * P) ≤ 1.001 * (2.1 * v + 2 * P) :=
    mul_le_mul_of_nonneg_right (by linarith) (by linarith)
  have a2 : (1 + v) * ((1 + v) * (2.1 * v + 2 * P) + v) ≤ 1.001 * (1.001 * (2.1 * v + 2 * P) + v) :=
    mul_le_mul (by linarith) (by linarith) (by positivity) (by norm_num)
  linarith

/-- The clipped term `1 - (ρ/ρ_ped)^β` of the pedestal profile. -/
theorem term_err (hA : StandardModel A u) (hF : AccurateLib F v) (hF0 : PowZero F) (huv : u ≤ v) (hv : v ≤ 1 / 1000)
    {beta rp x : ℝ} (hb : 0 < beta) (hbv : (1 + beta) * v ≤ 1 / 500) (x0 : 0 ≤ x) (hx : x < rp) :
    |clip 0 1 (A.rd (1 - F.pow (A.rd (x / rp)) beta)) - (1 - (x / rp) ^ beta)| ≤ 3 * (1 + beta) * v := by
  have v0 := hA.u_nonneg.trans huv
  have hrp : 0 < rp := lt_of_le_of_lt x0 hx
  have q0 : 0 ≤ x / rp := div_nonneg x0 hrp.le
  have q1 : x / rp ≤ 1 := (div_le_one hrp).2 hx.le
  have p0 := Real.rpow_nonneg q0 beta
  have p1 : (x / rp) ^ beta ≤ 1 := Real.rpow_le_one q0 q1 hb.le
  have hbv0 : 0 ≤ beta * v := by positivity
  have key : |F.pow (A.rd (x / rp)) beta - (x / rp) ^ beta| ≤ 1.05 * ((1 + beta) * v) := by
    rcases q0.eq_or_lt with h | h
    · rw [← h, rd_zero' hA, hF0 beta hb, Real.zero_rpow hb.ne', sub_self, abs_zero]
      positivity
    · have l1 := LC.rd hA (show u ≤ 1 / 100 by linarith) (show 1.02 * u ≤ 1.02 * v by linarith) h
      have l2 := (lib_pow hF (show v ≤ 1 / 100 by linarith) _ beta l1.1).trans
        (l1.rpow (p := beta) (η := 0) hb.le (by simp) le_rfl)
      have l3 := l2.mono (show _ ≤ 1.02 * ((1 + beta) * v) by linarith)
      have l4 := l3.rel (by linarith)
      refine l4.trans ?_
      have : 0 ≤ (1 + beta) * v := by linarith
      nlinarith
  have k2 : |(1 - F.pow (A.rd (x / rp)) beta) - (1 - (x / rp) ^ beta)| ≤ 1.05 * ((1 + beta) * v) := by
    rw [sub_sub_sub_cancel_left, abs_sub_comm]; exact key
  have k3 := rd_absv hA huv k2 (show |1 - (x / rp) ^ beta| ≤ 1 by rw [abs_of_nonneg (by linarith)]; linarith)
  have k4 : |A.rd (1 - F.pow (A.rd (x / rp)) beta) - (1 - (x / rp) ^ beta)| ≤ 3 * (1 + beta) * v := by
    refine k3.trans ?_
    have : v * ((1 + beta) * v) ≤ v * (1 / 500) := mul_le_mul_of_nonneg_left hbv v0
    nlinarith
  have hm : clip 0 1 (1 - (x / rp) ^ beta) = 1 - (x / rp) ^ beta := clip_of_mem _ (by linarith) (by linarith)
  refine le_trans (le_of_eq_of_le (b := |clip 0 1 (A.rd (1 - F.pow (A.rd (x / rp)) beta)) -
    clip 0 1 (1 - (x / rp) ^ beta)|) (by rw [hm]) ?_) k4
  clear hm
  generalize A.rd (1 - F.pow (A.rd (x / rp)) beta) = a
  generalize (1 : ℝ) - (x / rp) ^ beta = b
  unfold clip
  have m1 := abs_min_sub_min_le_max (max a 0) 1 (max b 0) 1
  have m2 := abs_max_sub_max_le_max a 0 b 0
  rw [sub_self, abs_zero, max_eq_left (abs_nonneg (max a 0 - max b 0))] at m1
  rw [sub_self, abs_zero, max_eq_left (abs_nonneg (a - b))] at m2
  exact m1.trans m2

/-- C100.  Pedestal profile inside the pedestal. -/
theorem C100_pedestal_core (hA : StandardModel A u) (hF : AccurateLib F v) (hF0 : PowZero F) (huv : u ≤ v)
    (hv : v ≤ 1 / 1000) {core ped sep alpha beta rp scale : ℝ} (ha : 0 < alpha) (hb : 0 < beta) (hr1 : rp ≤ 1)
    (hbv : (1 + beta) * v ≤ 1 / 500) (hav : alpha * (3 * (1 + beta) * v) ≤ 1 / 100) (rho : ℝ) (hrho : clamped rho < rp) :
    ∃ y, (Profile.mk (.pedestal core ped sep alpha beta rp) scale).valueR A F rho = .ok y ∧
      |y - scale * parabolaOnPedestal core ped sep alpha beta rp rho| ≤
        (6 * v + 2 * powLoss alpha (3 * (1 + beta) * v)) * (|scale| * (|core| + |ped|)) := by
  have v0 := hA.u_nonneg.trans huv
  obtain ⟨x0, x1⟩ := clamped_mem rho
  have hrp : 0 < rp := lt_of_le_of_lt x0 hrho
  have q0 : 0 ≤ clamped rho / rp := div_nonneg x0 hrp.le
  have q1 : clamped rho / rp ≤ 1 := (div_le_one hrp).2 hrho.le
  have p0 := Real.rpow_nonneg q0 beta
  have p1 : (clamped rho / rp) ^ beta ≤ 1 := Real.rpow_le_one q0 q1 hb.le
  have ht := term_err hA hF hF0 huv hv hb hbv x0 hrho
  set t' := clip 0 1 (A.rd (1 - F.pow (A.rd (clamped rho / rp)) beta)) with ht'
  set t := 1 - (clamped rho / rp) ^ beta with htd
  obtain ⟨c0, c1⟩ := clip_mem (A.rd (1 - F.pow (A.rd (clamped rho / rp)) beta))
  rw [← ht'] at c0 c1
  have t0 : 0 ≤ t := by rw [htd]; linarith
  have t1 : t ≤ 1 := by rw [htd]; linarith
  have h0 : 0 ≤ 3 * (1 + beta) * v := by positivity
  have pl := powLoss_nonneg ha h0
  set P := powLoss alpha (3 * (1 + beta) * v) with hP
  have w1 := pow_close ha hav c0 t0 (by linarith) (by linarith) ht
  rw [← hP] at w1
  have tp0 := Real.rpow_nonneg t0 alpha
  have tp1 : t ^ alpha ≤ 1 := Real.rpow_le_one t0 t1 ha.le
  have tp1' : t' ^ alpha ≤ 1 := Real.rpow_le_one c0 c1 ha.le
  have w2 : |F.pow t' alpha - t' ^ alpha| ≤ v := by
    rcases c0.eq_or_lt with h | h
    · rw [← h, hF0 alpha ha, Real.zero_rpow ha.ne', sub_self, abs_zero]; exact v0
    · exact (hF.pow t' alpha h).trans (mul_le_of_le_one_right v0 tp1')
  have w3 : |F.pow t' alpha - t ^ alpha| ≤ v + 1.02 * P := by
    have : F.pow t' alpha - t ^ alpha = (F.pow t' alpha - t' ^ alpha) + (t' ^ alpha - t ^ alpha) := by ring
    rw [this]
    exact (abs_add_le _ _).trans (add_le_add w2 w1)
  have w4 : |F.pow t' alpha| ≤ 1 + v := by
    have : F.pow t' alpha = (F.pow t' alpha - t' ^ alpha) + t' ^ alpha := by ring
    rw [this]
    refine (abs_add_le _ _).trans ?_
    rw [abs_of_nonneg (Real.rpow_nonneg c0 alpha)]
    linarith
  set M := |core| + |ped| with hM
  have M0 : 0 ≤ M := by positivity
  have d1 : |core - ped| ≤ M := abs_sub _ _
  have d2 : |A.rd (core - ped) - (core - ped)| ≤ v * M := (hA.rel _).trans (mul_le_mul huv d1 (abs_nonneg _) v0)
  have s1 : |A.rd (core - ped) * F.pow t' alpha - (core - ped) * t ^ alpha| ≤ (2.01 * v + 1.02 * P) * M := by
    have e : A.rd (core - ped) * F.pow t' alpha - (core - ped) * t ^ alpha =
      (A.rd (core - ped) - (core - ped)) * F.pow t' alpha + (core - ped) * (F.pow t' alpha - t ^ alpha) := by ring
    rw [e]
    refine (abs_add_le _ _).trans ?_
    rw [abs_mul, abs_mul]
    have m1 := mul_le_mul d2 w4 (abs_nonneg _) (by positivity)
    have m2 := mul_le_mul d1 w3 (abs_nonneg _) M0
    have m3 : v * v ≤ v * (1 / 1000) := mul_le_mul_of_nonneg_left hv v0
    have m4 : v * M * (1 + v) ≤ 1.001 * v * M := by nlinarith
    have m5 : 0 ≤ v * M := by positivity
    linarith
  have s2 := rd_absv hA huv s1 (show |(core - ped) * t ^ alpha| ≤ M by
    rw [abs_mul, abs_of_nonneg tp0]; exact (mul_le_of_le_one_right (abs_nonneg _) tp1).trans d1)
  have s3 : |(ped + A.rd (A.rd (core - ped) * F.pow t' alpha)) - (ped + (core - ped) * t ^ alpha)| ≤
      (1 + v) * ((2.01 * v + 1.02 * P) * M) + v * M := by
    rw [add_sub_add_left_eq_sub]; exact s2
  have b : |ped + (core - ped) * t ^ alpha| ≤ M := by
    have : ped + (core - ped) * t ^ alpha = ped * (1 - t ^ alpha) + core * t ^ alpha := by ring
    rw [this, hM, add_comm |core|]
    refine (abs_add_le _ _).trans (add_le_add ?_ ?_)
    · rw [abs_mul, abs_of_nonneg (show 0 ≤ 1 - t ^ alpha by linarith)]
      exact mul_le_of_le_one_right (abs_nonneg _) (by linarith)
    · rw [abs_mul, abs_of_nonneg tp0]; exact mul_le_of_le_one_right (abs_nonneg _) tp1
  have s4 := rd_absv hA huv s3 b
  have s5 : |A.rd (ped + A.rd (A.rd (core - ped) * F.pow t' alpha)) * scale - (ped + (core - ped) * t ^ alpha) * scale| ≤
      ((1 + v) * ((1 + v) * ((2.01 * v + 1.02 * P) * M) + v * M) + v * M) * |scale| := by
    rw [← sub_mul, abs_mul]
    exact mul_le_mul_of_nonneg_right s4 (abs_nonneg _)
  have s6 := rd_absv hA huv s5 (show |(ped + (core - ped) * t ^ alpha) * scale| ≤ M * |scale| by
    rw [abs_mul]; exact mul_le_mul_of_nonneg_right b (abs_nonneg _))
  refine ⟨_, rfl, ?_⟩
  have ev : pedestalValueR A F core ped sep alpha beta rp rho = A.rd (ped + A.rd (A.rd (core - ped) * F.pow t' alpha)) := by
    unfold pedestalValueR
    rw [clip_of_mem rp hrp.le hr1, clip_eq_clamped, if_pos hrho]
    rfl
  rw [ev]
  unfold parabolaOnPedestal
  rw [if_pos hrho, mul_comm scale, ← htd]
  refine s6.trans ?_
  have e : (1 + v) * (((1 + v) * ((1 + v) * ((2.01 * v + 1.02 * P) * M) + v * M) + v * M) * |scale|) + v * (M * |scale|) =
      ((1 + v) * ((1 + v) * ((1 + v) * (2.01 * v + 1.02 * P) + v) + v) + v) * (|scale| * M) := by ring
  rw [e]
  refine mul_le_mul_of_nonneg_right ?_ (by positivity)
  have a1 : (1 + v) * (2.01 * v + 1.02 * P) ≤ 1.001 * (2.01 * v + 1.02 * P) :=
    mul_le_mul_of_nonneg_right (by linarith) (by linarith)
  have a2 : (1 + v) * ((1 + v) * (2.01 * v + 1.02 * P) + v) ≤ 1.001 * (1.001 * (2.01 * v + 1.02 * P) + v) :=
    mul_le_mul (by linarith) (by linarith) (by positivity) (by norm_num)
  have a3 : (1 + v) * ((1 + v) * ((1 + v) * (2.01 * v + 1.02 * P) + v) + v) ≤
      1.001 * (1.001 * (1.001 * (2.01 * v + 1.02 * P) + v) + v) :=
    mul_le_mul (by linarith) (by linarith) (by positivity) (by norm_num)
  linarith

/-- A difference times a ratio of differences, each operation rounded. -/
theorem line_factor (hA : StandardModel A u) (huv : u ≤ v) (hv : v ≤ 1 / 1000) (d a b : ℝ) :
    ∃ θ, A.rd (A.rd (A.rd d * A.rd a) / A.rd b) = d * (a / b) * θ ∧ |θ - 1| ≤ 5.3 * v := by
  have hv2 : v ≤ 1 / 100 := by linarith
  obtain ⟨θ1, e1, l1⟩ := rd_factor hA huv hv2 d
  obtain ⟨θ2, e2, l2⟩ := rd_factor hA huv hv2 a
  obtain ⟨θ3, e3, l3⟩ := rd_factor hA huv hv2 b
  obtain ⟨θ4, e4, l4⟩ := rd_factor hA huv hv2 (A.rd d * A.rd a)
  obtain ⟨θ5, e5, l5⟩ := rd_factor hA huv hv2 (A.rd (A.rd d * A.rd a) / A.rd b)
  refine ⟨θ1 * θ2 * θ4 * θ5 / θ3, ?_, ?_⟩
  · rw [e5, e4, e1, e2, e3]
    have := l3.1.ne'
    by_cases hb : b = 0
    · subst hb; simp
    · field_simp
  · have l := ((((l1.mul l2).mul l4).mul l5).div l3).mono (show _ ≤ 5.1 * v by linarith)
    simp only [mul_one, div_one] at l
    have := l.rel (by linarith)
    rw [mul_one] at this
    exact this.trans (by linarith [hA.u_nonneg])

/-- C100.  Pedestal profile from the pedestal outwards. -/
theorem C100_pedestal_edge (hA : StandardModel A u) (huv : u ≤ v) (hv : v ≤ 1 / 1000)
    {core ped sep alpha beta rp scale : ℝ} (hr0 : 0 ≤ rp) (hr1 : rp < 1) (rho : ℝ) (hrho : rp ≤ clamped rho) :
    ∃ y, (Profile.mk (.pedestal core ped sep alpha beta rp) scale).valueR A F rho = .ok y ∧
      |y - scale * parabolaOnPedestal core ped sep alpha beta rp rho| ≤ 8 * v * (|scale| * (|ped| + |sep|)) := by
  have v0 := hA.u_nonneg.trans huv
  obtain ⟨x0, x1⟩ := clamped_mem rho
  obtain ⟨θ, e, hθ⟩ := line_factor hA huv hv (ped - sep) (1 - clamped rho) (1 - rp)
  set r := (1 - clamped rho) / (1 - rp) with hr
  have r0 : 0 ≤ r := div_nonneg (by linarith) (by linarith)
  have r1 : r ≤ 1 := (div_le_one (by linarith)).2 (by linarith)
  set M := |ped| + |sep| with hM
  have M0 : 0 ≤ M := by positivity
  have d1 : |ped - sep| ≤ M := abs_sub _ _
  have s1 : |(sep + A.rd (A.rd (A.rd (ped - sep) * A.rd (1 - clamped rho)) / A.rd (1 - rp))) -
      (sep + (ped - sep) * r)| ≤ 5.3 * v * M := by
    rw [e, add_sub_add_left_eq_sub, show (ped - sep) * r * θ - (ped - sep) * r = (θ - 1) * ((ped - sep) * r) by ring, abs_mul]
    refine mul_le_mul hθ ?_ (abs_nonneg _) (by positivity)
    rw [abs_mul, abs_of_nonneg r0]
    exact (mul_le_of_le_one_right (abs_nonneg _) r1).trans d1
  have b : |sep + (ped - sep) * r| ≤ M := by
    have : sep + (ped - sep) * r = ped * r + sep * (1 - r) := by ring
    rw [this, hM]
    refine (abs_add_le _ _).trans (add_le_add ?_ ?_)
    · rw [abs_mul, abs_of_nonneg r0]; exact mul_le_of_le_one_right (abs_nonneg _) r1
    · rw [abs_mul, abs_of_nonneg (show 0 ≤ 1 - r by linarith)]
      exact mul_le_of_le_one_right (abs_nonneg _) (by linarith)
  have s2 := rd_absv hA huv s1 b
  have s3 : |A.rd (sep + A.rd (A.rd (A.rd (ped - sep) * A.rd (1 - clamped rho)) / A.rd (1 - rp))) * scale -
      (sep + (ped - sep) * r) * scale| ≤ ((1 + v) * (5.3 * v * M) + v * M) * |scale| := by
    rw [← sub_mul, abs_mul]
    exact mul_le_mul_of_nonneg_right s2 (abs_nonneg _)
  have s4 := rd_absv hA huv s3 (show |(sep + (ped - sep) * r) * scale| ≤ M * |scale| by
    rw [abs_mul]; exact mul_le_mul_of_nonneg_right b (abs_nonneg _))
  refine ⟨_, rfl, ?_⟩
  have ev : pedestalValueR A F core ped sep alpha beta rp rho =
      A.rd (sep + A.rd (A.rd (A.rd (ped - sep) * A.rd (1 - clamped rho)) / A.rd (1 - rp))) := by
    unfold pedestalValueR
    rw [clip_of_mem rp hr0 hr1.le, clip_eq_clamped, if_neg (not_lt.2 hrho)]
    unfold pedestalEdgeR
    rw [if_neg hr1.ne]
  rw [ev]
  unfold parabolaOnPedestal
  rw [if_neg (not_lt.2 hrho), mul_comm scale, ← hr]
  refine s4.trans ?_
  have e : (1 + v) * (((1 + v) * (5.3 * v * M) + v * M) * |scale|) + v * (M * |scale|) =
      ((1 + v) * ((1 + v) * (5.3 * v) + v) + v) * (|scale| * M) := by ring
  rw [e]
  refine mul_le_mul_of_nonneg_right ?_ (by positivity)
  nlinarith [mul_nonneg v0 v0, mul_le_mul_of_nonneg_left hv v0, mul_le_mul_of_nonneg_left hv (mul_nonneg v0 v0)]

/-- C100.  With the pedestal at the separatrix the computed value there is the separatrix value. -/
theorem C100_pedestal_at_edge (hA : StandardModel A u) {core ped sep alpha beta rp scale : ℝ} (hr1 : 1 ≤ rp) (rho : ℝ)
    (hrho : 1 ≤ rho) :
    ∃ y, (Profile.mk (.pedestal core ped sep alpha beta rp) scale).valueR A F rho = .ok y ∧
      |y - scale * sep| ≤ u * |scale * sep| := by
  refine ⟨_, rfl, ?_⟩
  have ev : pedestalValueR A F core ped sep alpha beta rp rho = sep := by
    unfold pedestalValueR
    rw [clip_ge rp hr1, clip_ge rho hrho, if_neg (lt_irrefl _)]
    unfold pedestalEdgeR
    rw [if_pos rfl]
  rw [ev, mul_comm scale]
  exact hA.rel _

/-- One interpolation in a table with values between 0 and `M`. -/
theorem npInterpR_err (hA : StandardModel A u) (huv : u ≤ v) (hv : v ≤ 1 / 1000) {M : ℝ} (hM : 0 ≤ M)
    (table : List (ℝ × ℝ)) (x : ℝ) (ht : ∀ p ∈ table, 0 ≤ p.2 ∧ p.2 ≤ M) :
    0 ≤ npInterp table x ∧ npInterp table x ≤ M ∧ |npInterpR A table x - npInterp table x| ≤ 6.4 * v * M := by
  have v0 := hA.u_nonneg.trans huv
  induction table with
  | nil => simp [npInterp, npInterpR]; exact ⟨hM, by positivity⟩
  | cons p l ih =>
    cases l with
    | nil =>
      have := ht p (by simp)
      simp only [npInterp, npInterpR, sub_self, abs_zero]
      exact ⟨this.1, this.2, by positivity⟩
    | cons q l =>
      obtain ⟨p0, p1⟩ := ht p (by simp)
      obtain ⟨q0, q1⟩ := ht q (by simp)
      simp only [npInterp, npInterpR]
      by_cases h : x < q.1
      · rw [if_pos h, if_pos h]
        by_cases h2 : x < p.1
        · rw [if_pos h2, if_pos h2.le, sub_self, abs_zero]
          exact ⟨p0, p1, by positivity⟩
        · rw [if_neg h2]
          push Not at h2
          have hpq : p.1 < q.1 := lt_of_le_of_lt h2 h
          set r := (x - p.1) / (q.1 - p.1) with hr
          have r0 : 0 ≤ r := div_nonneg (by linarith) (by linarith)
          have r1 : r ≤ 1 := (div_le_one (by linarith)).2 (by linarith)
          have e0 : (q.2 - p.2) / (q.1 - p.1) * (x - p.1) + p.2 = q.2 * r + p.2 * (1 - r) := by
            rw [hr]
            have : q.1 - p.1 ≠ 0 := by linarith
            field_simp
            ring
          have b0 : 0 ≤ (q.2 - p.2) / (q.1 - p.1) * (x - p.1) + p.2 := by
            rw [e0]
            exact add_nonneg (mul_nonneg q0 r0) (mul_nonneg p0 (by linarith))
          have b1 : (q.2 - p.2) / (q.1 - p.1) * (x - p.1) + p.2 ≤ M := by
            rw [e0]
            nlinarith
          refine ⟨b0, b1, ?_⟩
          by_cases h3 : x ≤ p.1
          · have : x = p.1 := le_antisymm h3 h2
            rw [if_pos h3, this, sub_self, mul_zero, zero_add, sub_self, abs_zero]
            positivity
          · rw [if_neg h3]
            have hv2 : v ≤ 1 / 100 := by linarith
            obtain ⟨θ1, e1, l1⟩ := rd_factor hA huv hv2 (q.2 - p.2)
            obtain ⟨θ2, e2, l2⟩ := rd_factor hA huv hv2 (q.1 - p.1)
            obtain ⟨θ3, e3, l3⟩ := rd_factor hA huv hv2 (x - p.1)
            obtain ⟨θ4, e4, l4⟩ := rd_factor hA huv hv2 (A.rd (q.2 - p.2) / A.rd (q.1 - p.1))
            obtain ⟨θ5, e5, l5⟩ := rd_factor hA huv hv2
              (A.rd (A.rd (q.2 - p.2) / A.rd (q.1 - p.1)) * A.rd (x - p.1))
            have l := ((((l1.mul l3).mul l4).mul l5).div l2).mono (show _ ≤ 5.1 * v by linarith)
            simp only [mul_one, div_one] at l
            have hθ := l.rel (by linarith)
            rw [mul_one] at hθ
            have e : A.rd (A.rd (A.rd (q.2 - p.2) / A.rd (q.1 - p.1)) * A.rd (x - p.1)) =
                (q.2 - p.2) * r * (θ1 * θ3 * θ4 * θ5 / θ2) := by
              rw [e5, e4, e1, e2, e3, hr]
              have := l2.1.ne'
              have : q.1 - p.1 ≠ 0 := by linarith
              field_simp
            have e6 : (q.2 - p.2) / (q.1 - p.1) * (x - p.1) = (q.2 - p.2) * r := by rw [hr]; ring
            rw [e6] at b0 b1 ⊢
            have s1 : |A.rd (A.rd (A.rd (q.2 - p.2) / A.rd (q.1 - p.1)) * A.rd (x - p.1)) + p.2 -
                ((q.2 - p.2) * r + p.2)| ≤ 5.3 * v * M := by
              rw [e, add_sub_add_right_eq_sub]
              generalize θ1 * θ3 * θ4 * θ5 / θ2 = θ at hθ
              rw [show (q.2 - p.2) * r * θ - (q.2 - p.2) * r = (θ - 1) * ((q.2 - p.2) * r) by ring, abs_mul]
              refine mul_le_mul (hθ.trans (by linarith)) ?_ (abs_nonneg _) (by positivity)
              rw [abs_mul, abs_of_nonneg r0]
              refine (mul_le_of_le_one_right (abs_nonneg _) r1).trans ?_
              rw [abs_le]
              constructor <;> linarith
            have s2 := rd_absv hA huv s1 (show |(q.2 - p.2) * r + p.2| ≤ M by rw [abs_of_nonneg b0]; exact b1)
            refine s2.trans ?_
            have e : (1 + v) * (5.3 * v * M) + v * M = ((1 + v) * (5.3 * v) + v) * M := by ring
            rw [e]
            refine mul_le_mul_of_nonneg_right ?_ hM
            nlinarith
      · rw [if_neg h, if_neg h]
        exact ih fun r hr => ht r (List.mem_cons_of_mem _ hr)

/-- C100.  Tabulated profile with values between 0 and `M`: it fails exactly where the exact one fails, and otherwise the
error is at most `8 v` of the largest value. -/
theorem C100_data (hA : StandardModel A u) (huv : u ≤ v) (hv : v ≤ 1 / 1000) {M scale : ℝ} (hM : 0 ≤ M)
    (table : List (ℝ × ℝ)) (rho : ℝ) (ht : ∀ p ∈ table, 0 ≤ p.2 ∧ p.2 ≤ M) :
    (∀ err, (Profile.mk (.data table) scale).value rho = .error err →
      (Profile.mk (.data table) scale).valueR A F rho = .error err) ∧
    (∀ y, (Profile.mk (.data table) scale).value rho = .ok y →
      ∃ y', (Profile.mk (.data table) scale).valueR A F rho = .ok y' ∧ |y' - y| ≤ 8 * v * (|scale| * M)) := by
  have v0 := hA.u_nonneg.trans huv
  have ems : (table.mergeSort fun p q : ℝ × ℝ => @decide (p.1 ≤ q.1) (Classical.propDecidable _)) =
      table.mergeSort fun p q : ℝ × ℝ => decide (p.1 ≤ q.1) := by
    have e : (fun p q : ℝ × ℝ => @decide (p.1 ≤ q.1) (Classical.propDecidable _)) =
        fun p q : ℝ × ℝ => decide (p.1 ≤ q.1) := by
      funext p q
      congr
    rw [e]
  have ht' : ∀ p ∈ table.mergeSort (fun p q : ℝ × ℝ => decide (p.1 ≤ q.1)), 0 ≤ p.2 ∧ p.2 ≤ M :=
    fun p hp => ht p (List.mem_mergeSort.1 hp)
  simp only [Profile.value, Profile.valueR, dataValue, dataValueR, interp1d, interp1dR, ems]
  generalize table.mergeSort (fun p q : ℝ × ℝ => decide (p.1 ≤ q.1)) = l at ht'
  generalize clip 0 1 rho = x
  obtain ⟨i0, i1, i2⟩ := npInterpR_err hA huv hv hM l x ht'
  cases h1 : l.head? with
  | none => exact ⟨fun err h => h, fun y h => by cases h⟩
  | some a =>
    cases h2 : l.getLast? with
    | none => exact ⟨fun err h => h, fun y h => by cases h⟩
    | some b =>
      simp only
      by_cases h : x < a.1 ∨ b.1 < x
      · simp only [if_pos h]
        exact ⟨fun err h => h, fun y h => by cases h⟩
      · simp only [if_neg h]
        refine ⟨fun err h => (by cases h), fun y h => ?_⟩
        have hy : y = scale * npInterp l x := by
          have : (Except.ok (scale * npInterp l x) : Except Err ℝ) = .ok y := h
          cases this; rfl
        refine ⟨A.rd (scale * npInterpR A l x), rfl, ?_⟩
        rw [hy]
        have s1 : |scale * npInterpR A l x - scale * npInterp l x| ≤ |scale| * (6.4 * v * M) := by
          rw [← mul_sub, abs_mul]
          exact mul_le_mul_of_nonneg_left i2 (abs_nonneg _)
        have s2 := rd_absv hA huv s1 (show |scale * npInterp l x| ≤ |scale| * M by
          rw [abs_mul, abs_of_nonneg i0]; exact mul_le_mul_of_nonneg_left i1 (abs_nonneg _))
        refine s2.trans ?_
        have e : (1 + v) * (|scale| * (6.4 * v * M)) + v * (|scale| * M) = ((1 + v) * (6.4 * v) + v) * (|scale| * M) := by ring
        rw [e]
        refine mul_le_mul_of_nonneg_right ?_ (by positivity)
        nlinarith

end

end
end TNS
