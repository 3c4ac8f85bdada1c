import Verif.Props.RoundedEnergyGrid
/-
C99, third part: the densities of the Gaussian and of the modified Gaussian with rounding.
-/

set_option autoImplicit false

namespace TNS
open Spec
noncomputable section

/-- A quotient whose numerator and denominator carry errors. -/
theorem quot_err {N N' s s' α ε W : ℝ} (hs : LC ε s' s) (he : ε ≤ 1 / 100) (hN : |N' - N| ≤ α * s) (hW : |N| ≤ W * s) :
    |N' / s' - N / s| ≤ 1.02 * α + 1.02 * W * ε := by
  have s0 := hs.2.1
  have s0' := hs.1
  have e0 : 0 ≤ ε := (abs_nonneg _).trans hs.2.2
  have k := ((LC.refl s0).div hs).rel (by linarith)
  rw [zero_add, div_self s0.ne', mul_one] at k
  have e : N' / s' - N / s = (N' - N) / s * (s / s') + N / s * (s / s' - 1) := by field_simp; ring
  have a1 : |(N' - N) / s| ≤ α := by rw [abs_div, abs_of_pos s0, div_le_iff₀ s0]; exact hN
  have a2 : |N / s| ≤ W := by rw [abs_div, abs_of_pos s0, div_le_iff₀ s0]; exact hW
  have α0 : 0 ≤ α := (abs_nonneg _).trans a1
  have W0 : 0 ≤ W := (abs_nonneg _).trans a2
  have a3 : |s / s'| ≤ 1.02 := by
    obtain ⟨_, _⟩ := abs_le.1 k
    rw [abs_le]; constructor <;> linarith
  rw [e]
  refine (abs_add_le _ _).trans ?_
  rw [abs_mul, abs_mul]
  have b1 := mul_le_mul a1 a3 (abs_nonneg _) α0
  have b2 := mul_le_mul a2 k (abs_nonneg _) W0
  linarith

theorem sq_err {x x' e M : ℝ} (h : |x' - x| ≤ e) (hM : |x| ≤ M) (he : e ≤ M / 100) : |x' * x' - x ^ 2| ≤ 2.01 * M * e := by
  have e0 : 0 ≤ e := (abs_nonneg _).trans h
  have M0 : 0 ≤ M := (abs_nonneg _).trans hM
  have : x' * x' - x ^ 2 = (x' - x) * (2 * x + (x' - x)) := by ring
  rw [this, abs_mul]
  have k : |2 * x + (x' - x)| ≤ 2.01 * M := by
    refine (abs_add_le _ _).trans ?_
    rw [abs_mul, abs_two]
    linarith
  have := mul_le_mul h k (abs_nonneg _) e0
  linarith

/-- Mean `mu`, standard deviation `q * mu`, and their computed values. -/
structure Moments (A : Arith) (F : MathLib) (u v q mu mu' sigma' : ℝ) : Prop where
  hA : StandardModel A u
  hF : AccurateLib F v
  huv : u ≤ v
  hv : v ≤ 1 / 10 ^ 10
  mu_pos : 0 < mu
  q_pos : 0 < q
  q_le : q ≤ 1 / 10
  small : v ≤ q ^ 2 / 10 ^ 5
  mean : LC (4.4 * v) mu' mu
  dev : LC (11 * v) sigma' (q * mu)

section
variable {A : Arith} {F : MathLib} {u v q mu mu' sigma' : ℝ}

theorem Moments.v0 (H : Moments A F u v q mu mu' sigma') : 0 ≤ v := H.hA.u_nonneg.trans H.huv

/-- One density of the Gaussian. -/
theorem gaussianPdf_close (H : Moments A F u v q mu mu' sigma') {P : ℝ} (hP : v = P * q) {pi : ℝ}
    (hpi : |pi - Real.pi| ≤ u * Real.pi) {E E' : ℝ} (hE : |E - mu| ≤ 6 * (q * mu)) (hE' : |E' - E| ≤ 50 * v * mu) :
    LC (400 * P) (gaussianPdfR A F pi mu' sigma' E')
      (1 / (q * mu * Real.sqrt (2 * Real.pi)) * Real.exp (-((E - mu) ^ 2) / (2 * (q * mu) ^ 2))) := by
  obtain ⟨hA, hF, huv, hv, hmu, hq, hq1, hsm, hmean, hdev⟩ := H
  have h0 := hA.u_nonneg
  have hv0 : 0 ≤ v := h0.trans huv
  have hu : u ≤ 1 / 100 := by linarith
  have hv' : v ≤ 1 / 100 := by linarith
  have hw : 1.02 * u ≤ 1.02 * v := by linarith
  have hP0 : 0 ≤ P := by
    by_contra hn
    push Not at hn
    have := mul_neg_of_neg_of_pos hn hq
    linarith
  have vP : v ≤ 0.1 * P := by rw [hP]; nlinarith
  have hPs : P ≤ 1 / 10 ^ 6 := by
    have : P * q ≤ q / 10 ^ 6 := by rw [← hP]; refine hsm.trans ?_; nlinarith
    have : P * q ≤ 1 / 10 ^ 6 * q := by linarith
    exact le_of_mul_le_mul_right this hq
  set σ := q * mu with hσ
  have s0 : 0 < σ := mul_pos hq hmu
  have vmu : v * mu = P * σ := by rw [hP, hσ]; ring
  have Ps0 : 0 ≤ P * σ := mul_nonneg hP0 s0.le
  have vs : v * σ ≤ 0.1 * (P * σ) := by have := mul_le_mul_of_nonneg_right vP s0.le; linarith
  have m1 := hmean.rel (by linarith)
  have x1 : |(E' - mu') - (E - mu)| ≤ 54.5 * (P * σ) := by
    have : (E' - mu') - (E - mu) = (E' - E) - (mu' - mu) := by ring
    rw [this]
    refine (abs_sub _ _).trans ?_
    linarith
  have Pσ1 : P * σ ≤ σ / 10 ^ 6 := by have := mul_le_mul_of_nonneg_right hPs s0.le; linarith
  have x2 := rd_err hA huv x1 hE (by linarith)
  have x3 : |A.rd (E' - mu') - (E - mu)| ≤ 55.2 * (P * σ) := x2.trans (by linarith)
  have x4 := sq_err x3 hE (by linarith)
  have σ2 : 0 < σ ^ 2 := by positivity
  have x5 : |A.rd (E' - mu') * A.rd (E' - mu') - (E - mu) ^ 2| ≤ 666 * P * σ ^ 2 := x4.trans (by nlinarith)
  have hE2 : |(E - mu) ^ 2| ≤ 36 * σ ^ 2 := by
    rw [abs_pow]
    have := pow_le_pow_left₀ (abs_nonneg _) hE 2
    linarith
  have Pσ2 : P * σ ^ 2 ≤ σ ^ 2 / 10 ^ 6 := by have := mul_le_mul_of_nonneg_right hPs σ2.le; linarith
  have x6 := rd_err hA huv x5 hE2 (by linarith)
  have vs2 : v * σ ^ 2 ≤ 0.1 * (P * σ ^ 2) := by have := mul_le_mul_of_nonneg_right vP σ2.le; linarith
  have Pσ20 : 0 ≤ P * σ ^ 2 := mul_nonneg hP0 σ2.le
  have x7 : |-(A.rd (A.rd (E' - mu') * A.rd (E' - mu'))) - (-(E - mu) ^ 2)| ≤ 335 * P * (2 * σ ^ 2) := by
    rw [show -(A.rd (A.rd (E' - mu') * A.rd (E' - mu'))) - (-(E - mu) ^ 2) =
      -(A.rd (A.rd (E' - mu') * A.rd (E' - mu')) - (E - mu) ^ 2) by ring, abs_neg]
    exact x6.trans (by linarith)
  have d1 : LC (23.1 * v) (F.pow sigma' 2) (σ ^ 2) := by
    have a := lib_pow hF hv' sigma' 2 hdev.1
    rw [Real.rpow_two] at a
    have b := hdev.mul hdev
    rw [← pow_two, ← pow_two] at b
    exact (a.trans b).mono (by linarith)
  have d2 := LC.round hA hu hw ((LC.refl (two_pos : (0 : ℝ) < 2)).mul d1)
  have d3 : LC (2.5 * P) (A.rd (2 * F.pow sigma' 2)) (2 * σ ^ 2) := d2.mono (by linarith)
  have w0 : |-(E - mu) ^ 2| ≤ 18 * (2 * σ ^ 2) := by rw [abs_neg]; linarith
  have w1 := quot_err d3 (by linarith) x7 w0
  have w0' : |-(E - mu) ^ 2 / (2 * σ ^ 2)| ≤ 18 := by
    rw [abs_div, abs_of_pos (by linarith : 0 < 2 * σ ^ 2), div_le_iff₀ (by linarith)]; exact w0
  have w2 := rd_err hA huv w1 w0' (by linarith)
  have l1 := LC.exp (w2.trans (show _ ≤ 391 * P by linarith))
  have l2 := (lib_exp hF hv' _).trans l1
  have l3 : LC (16.5 * v) (A.rd (1 / A.rd (sigma' * F.sqrt (A.rd (2 * pi))))) (1 / (σ * Real.sqrt (2 * Real.pi))) := by
    have p1 : LC (1.02 * v) pi Real.pi := (LC.of_rel Real.pi_pos hu hpi).mono hw
    have p2 := LC.round hA hu hw ((LC.refl (two_pos : (0 : ℝ) < 2)).mul p1)
    have p3 := (lib_sqrt hF hv' _ p2.1).trans p2.sqrt
    have p4 := LC.round hA hu hw (hdev.mul p3)
    have p5 := LC.round hA hu hw ((LC.refl (one_pos : (0 : ℝ) < 1)).div p4)
    exact p5.mono (by linarith)
  have l4 := LC.round hA hu hw (l3.mul l2)
  exact l4.mono (by linarith)

/-- The factors of the modified Gaussian. -/
theorem mgFactor_close (H : Moments A F u v q mu mu' sigma') :
    |mgFactorR A F mu' sigma' - (1 - 1.5 * q ^ 2)| ≤ 1.6 * v ∧
    LC (1.7 * v) (mgFactorR A F mu' sigma') (1 - 1.5 * q ^ 2) ∧
    LC (1.9 * v) (F.sqrt (mgFactorR A F mu' sigma')) (Real.sqrt (1 - 1.5 * q ^ 2)) := by
  obtain ⟨hA, hF, huv, hv, hmu, hq, hq1, hsm, hmean, hdev⟩ := H
  have h0 := hA.u_nonneg
  have hv0 : 0 ≤ v := h0.trans huv
  have hu : u ≤ 1 / 100 := by linarith
  have hv' : v ≤ 1 / 100 := by linarith
  have hw : 1.02 * u ≤ 1.02 * v := by linarith
  have q2 : q ^ 2 ≤ 1 / 100 := by nlinarith
  have q20 : 0 < q ^ 2 := by positivity
  have a1 := LC.round hA hu hw (hdev.div hmean)
  rw [mul_div_assoc, div_self hmu.ne', mul_one] at a1
  have a2 : LC (33.9 * v) (F.pow (A.rd (sigma' / mu')) 2) (q ^ 2) := by
    have a := lib_pow hF hv' (A.rd (sigma' / mu')) 2 a1.1
    rw [Real.rpow_two] at a
    have b := a1.mul a1
    rw [← pow_two, ← pow_two] at b
    exact (a.trans b).mono (by linarith)
  have a3 := LC.round hA hu hw ((LC.refl (by norm_num : (0 : ℝ) < 1.5)).mul a2)
  have a4 := (a3.mono (δ := 35 * v) (by linarith)).rel (by linarith)
  have vq : v * q ^ 2 ≤ v * (1 / 100) := mul_le_mul_of_nonneg_left q2 hv0
  have a5 : |(1 - A.rd (1.5 * F.pow (A.rd (sigma' / mu')) 2)) - (1 - 1.5 * q ^ 2)| ≤ 0.54 * v := by
    rw [show (1 - A.rd (1.5 * F.pow (A.rd (sigma' / mu')) 2)) - (1 - 1.5 * q ^ 2) =
      -(A.rd (1.5 * F.pow (A.rd (sigma' / mu')) 2) - 1.5 * q ^ 2) by ring, abs_neg]
    refine a4.trans ?_
    linarith
  have a6 := rd_err (M := 1) hA huv a5 (by rw [abs_le]; constructor <;> linarith) (by linarith)
  have a7 : |mgFactorR A F mu' sigma' - (1 - 1.5 * q ^ 2)| ≤ 1.6 * v := a6.trans (by linarith)
  have f0 : 0.985 ≤ 1 - 1.5 * q ^ 2 := by linarith
  have a8 : LC (1.7 * v) (mgFactorR A F mu' sigma') (1 - 1.5 * q ^ 2) := by
    refine (LC.of_rel (ε := 1.63 * v) (by linarith) (by linarith) (a7.trans ?_)).mono (by linarith)
    have := mul_le_mul_of_nonneg_left f0 hv0
    linarith
  refine ⟨a7, a8, ?_⟩
  exact ((lib_sqrt hF hv' _ a8.1).trans a8.sqrt).mono (by linarith)

theorem mg_facts (hq : 0 < q) (hq1 : q ≤ 1 / 10) :
    let S := Real.sqrt (1 - 1.5 * q ^ 2)
    0.99 ≤ S ∧ S ≤ 1 ∧ 0.745 * q ^ 2 ≤ S - (1 - 1.5 * q ^ 2) ∧ S - (1 - 1.5 * q ^ 2) ≤ 0.75 * q ^ 2 ∧ 1 - S ≤ 0.08 * q := by
  intro S
  have q2 : q ^ 2 ≤ 1 / 100 := by nlinarith
  have q20 : 0 < q ^ 2 := by positivity
  have hS : S ^ 2 = 1 - 1.5 * q ^ 2 := Real.sq_sqrt (by linarith)
  have S0 : 0 ≤ S := Real.sqrt_nonneg _
  have S1 : 0.99 ≤ S := by
    refine Real.le_sqrt_of_sq_le ?_
    norm_num; linarith
  have S2 : S ≤ 1 := by
    by_contra hn
    push Not at hn
    nlinarith
  have e : (1 - S) * (1 + S) = 1.5 * q ^ 2 := by nlinarith
  have e2 : S - (1 - 1.5 * q ^ 2) = S * (1 - S) := by rw [← hS]; ring
  rw [e2]
  refine ⟨S1, S2, ?_, ?_, ?_⟩
  · nlinarith
  · nlinarith
  · nlinarith

/-- The constants of the modified Gaussian. -/
theorem mgConst_close (H : Moments A F u v q mu mu' sigma') {R : ℝ} (hR : v = R * q ^ 2) :
    LC (7.4 * v) (mgEBarR A F mu' sigma') (mu * Real.sqrt (1 - 1.5 * q ^ 2)) ∧
    LC (5.2 * R) (mgSigmaSqR A F mu' sigma')
      (4 / 3 * mu ^ 2 * (Real.sqrt (1 - 1.5 * q ^ 2) - (1 - 1.5 * q ^ 2))) := by
  obtain ⟨f1, f2, f3⟩ := mgFactor_close H
  obtain ⟨hA, hF, huv, hv, hmu, hq, hq1, hsm, hmean, hdev⟩ := H
  obtain ⟨s1, s2, s3, s4, -⟩ := mg_facts hq hq1
  have h0 := hA.u_nonneg
  have hv0 : 0 ≤ v := h0.trans huv
  have hu : u ≤ 1 / 100 := by linarith
  have hv' : v ≤ 1 / 100 := by linarith
  have hw : 1.02 * u ≤ 1.02 * v := by linarith
  have q2 : q ^ 2 ≤ 1 / 100 := by nlinarith
  have q20 : 0 < q ^ 2 := by positivity
  have hR0 : 0 ≤ R := by
    by_contra hn
    push Not at hn
    have := mul_neg_of_neg_of_pos hn q20
    linarith
  have vR : v ≤ 0.01 * R := by rw [hR]; nlinarith
  have hRs : R ≤ 1 / 10 ^ 5 := by
    have : R * q ^ 2 ≤ 1 / 10 ^ 5 * q ^ 2 := by rw [← hR]; linarith
    exact le_of_mul_le_mul_right this q20
  unfold mgEBarR mgSigmaSqR
  set Fa := 1 - 1.5 * q ^ 2
  set S := Real.sqrt Fa
  set F' := mgFactorR A F mu' sigma'
  refine ⟨?_, ?_⟩
  · have := LC.round hA hu hw (hmean.mul f3)
    exact this.mono (by linarith)
  · have r3 := f3.rel (by linarith)
    have d1 : |(F.sqrt F' - F') - (S - Fa)| ≤ 3.6 * v := by
      rw [show (F.sqrt F' - F') - (S - Fa) = (F.sqrt F' - S) - (F' - Fa) by ring]
      refine (abs_sub _ _).trans ?_
      have := mul_le_mul_of_nonneg_left s2 hv0
      linarith
    have d0 : 0 < S - Fa := by linarith
    have d2 := rd_err (M := 0.75 * q ^ 2) hA huv d1 (by rw [abs_of_pos d0]; exact s4) (by linarith)
    have vq : v * q ^ 2 ≤ v * (1 / 100) := mul_le_mul_of_nonneg_left q2 hv0
    have d3 : |A.rd (F.sqrt F' - F') - (S - Fa)| ≤ 4.9 * R * (S - Fa) := by
      have k1 : 4.9 * R * (0.745 * q ^ 2) ≤ 4.9 * R * (S - Fa) := mul_le_mul_of_nonneg_left s3 (by linarith)
      have k2 : 4.9 * R * (0.745 * q ^ 2) = 3.6505 * v := by rw [hR]; ring
      refine d2.trans ?_
      linarith
    have d4 := LC.of_rel d0 (by linarith) d3
    have p1 : LC (1.02 * v) (A.rd (4 / 3)) (4 / 3) := LC.rd hA hu hw (by norm_num)
    have p2 : LC (9.9 * v) (F.pow mu' 2) (mu ^ 2) := by
      have a := lib_pow hF hv' mu' 2 hmean.1
      rw [Real.rpow_two] at a
      have b := hmean.mul hmean
      rw [← pow_two, ← pow_two] at b
      exact (a.trans b).mono (by linarith)
    have p3 := LC.round hA hu hw (p1.mul p2)
    have p4 := LC.round hA hu hw (p3.mul d4)
    exact p4.mono (by linarith)

theorem mg_twice (hA : StandardModel A u) (huv : u ≤ v) (hv : v ≤ 1 / 10 ^ 10) {eb eb' : ℝ} (hmu : 0 < mu)
    (hm : eb ≤ mu) (c1 : LC (7.4 * v) eb' eb) : |A.rd (-2 * eb') - (-2 * eb)| ≤ 18 * (v * mu) := by
  have hv0 : 0 ≤ v := hA.u_nonneg.trans huv
  have e1 := c1.rel (by linarith)
  have k1 : v * eb ≤ v * mu := mul_le_mul_of_nonneg_left hm hv0
  have vm0 : 0 ≤ v * mu := mul_nonneg hv0 hmu.le
  have e2 : |-2 * eb' - (-2 * eb)| ≤ 15.1 * (v * mu) := by
    rw [show -2 * eb' - (-2 * eb) = -2 * (eb' - eb) by ring, abs_mul, show |(-2 : ℝ)| = 2 by norm_num]
    have : 1.02 * (7.4 * v) * eb = 7.548 * (v * eb) := by ring
    rw [this] at e1
    linarith
  have vm1 : v * mu ≤ 1 / 10 ^ 10 * mu := mul_le_mul_of_nonneg_right hv hmu.le
  have e3 := rd_err (M := 2 * mu) hA huv e2 (by
    rw [abs_mul, show |(-2 : ℝ)| = 2 by norm_num, abs_of_pos c1.2.1]; linarith) (by linarith)
  exact e3.trans (by linarith)

theorem mg_product (hv0 : 0 ≤ v) (hv : v ≤ 1 / 10 ^ 10) (hmu : 0 < mu) (hq : 0 < q) (hq1 : q ≤ 1 / 10)
    {eb X Q' G' : ℝ} (eb0 : 0 < eb) (ebm : eb ≤ mu) (x2b : |X| ≤ 14.2 * (q ^ 2 * mu))
    (a9 : |Q' - X| ≤ 683 * (v * q * mu)) (g1 : |G' - (-2 * eb)| ≤ 18 * (v * mu)) :
    |G' * Q' - (-2 * eb) * X| ≤ 1400 * (v * q * mu ^ 2) ∧ |(-2 * eb) * X| ≤ 28.4 * (q ^ 2 * mu ^ 2) := by
  have vqmm : 0 ≤ v * q * mu ^ 2 := by positivity
  have k : |-2 * eb| ≤ 2 * mu := by rw [abs_mul, abs_of_pos eb0, show |(-2 : ℝ)| = 2 by norm_num]; linarith
  constructor
  · have e : G' * Q' - (-2 * eb) * X = (G' - (-2 * eb)) * X + (G' - (-2 * eb)) * (Q' - X) + (-2 * eb) * (Q' - X) := by ring
    have t1 : |(G' - (-2 * eb)) * X| ≤ 26 * (v * q * mu ^ 2) := by
      rw [abs_mul]
      refine (mul_le_mul g1 x2b (abs_nonneg _) (by positivity)).trans ?_
      have e1 : 18 * (v * mu) * (14.2 * (q ^ 2 * mu)) = 18 * 14.2 * (v * q * mu ^ 2 * q) := by ring
      rw [e1]
      have := mul_le_mul_of_nonneg_left hq1 vqmm
      norm_num at *
      linarith
    have t2 : |(G' - (-2 * eb)) * (Q' - X)| ≤ v * q * mu ^ 2 := by
      rw [abs_mul]
      have k' : |G' - (-2 * eb)| ≤ mu / 1000 := by
        refine g1.trans ?_
        have := mul_le_mul_of_nonneg_right hv hmu.le
        linarith
      refine (mul_le_mul k' a9 (abs_nonneg _) (by positivity)).trans ?_
      have e1 : mu / 1000 * (683 * (v * q * mu)) = 0.683 * (v * q * mu ^ 2) := by ring
      rw [e1]; linarith
    have t3 : |(-2 * eb) * (Q' - X)| ≤ 1366 * (v * q * mu ^ 2) := by
      rw [abs_mul]
      refine (mul_le_mul k a9 (abs_nonneg _) (by positivity)).trans ?_
      have e1 : 2 * mu * (683 * (v * q * mu)) = 1366 * (v * q * mu ^ 2) := by ring
      rw [e1]
    rw [e]
    refine (abs_add_le _ _).trans ((add_le_add (abs_add_le _ _) le_rfl).trans ?_)
    linarith
  · rw [abs_mul]
    refine (mul_le_mul k x2b (abs_nonneg _) (by positivity)).trans (le_of_eq ?_)
    ring

theorem mg_root (hA : StandardModel A u) (hF : AccurateLib F v) (huv : u ≤ v) (hv : v ≤ 1 / 10 ^ 10) (hmu : 0 < mu)
    (hq : 0 < q) (hq1 : q ≤ 1 / 10) (vq7 : v ≤ q / 10 ^ 6) {eb eb' E E' : ℝ} (ebl : 0.99 * mu ≤ eb) (ebm : eb ≤ mu)
    (s5 : mu - eb ≤ 0.08 * (q * mu)) (c1 : LC (7.4 * v) eb' eb) (hE : |E - mu| ≤ 6 * (q * mu))
    (hE' : |E' - E| ≤ 50 * v * mu) :
    |A.rd (F.sqrt E' - F.sqrt eb') - (Real.sqrt E - Real.sqrt eb)| ≤ 90 * (v * Real.sqrt mu) ∧
      |Real.sqrt E - Real.sqrt eb| ≤ 3.76 * (q * Real.sqrt mu) := by
  have hv0 : 0 ≤ v := hA.u_nonneg.trans huv
  have hv' : v ≤ 1 / 100 := by linarith
  set r := Real.sqrt mu with hr
  have r0 : 0 < r := Real.sqrt_pos.2 hmu
  have rr : r ^ 2 = mu := Real.sq_sqrt hmu.le
  have vr0 : 0 ≤ v * r := mul_nonneg hv0 r0.le
  obtain ⟨E1, E2⟩ := abs_le.1 hE
  have qmu : q * mu ≤ 1 / 10 * mu := mul_le_mul_of_nonneg_right hq1 hmu.le
  have El : 0.4 * mu ≤ E := by linarith
  have Eu : E ≤ 1.6 * mu := by linarith
  have le : LC (128 * v) E' E := by
    refine (LC.of_rel (ε := 125 * v) (by linarith) (by linarith) (hE'.trans ?_)).mono (by linarith)
    have := mul_le_mul_of_nonneg_left El hv0
    linarith
  have l1 := ((lib_sqrt hF hv' _ le.1).trans le.sqrt).mono (δ := 65.1 * v) (by linarith)
  have l2 := ((lib_sqrt hF hv' _ c1.1).trans c1.sqrt).mono (δ := 4.8 * v) (by linarith)
  have rE : Real.sqrt E ≤ 1.27 * r := by
    refine Real.sqrt_le_iff.2 ⟨by positivity, ?_⟩
    rw [mul_pow, rr]; norm_num; linarith
  have rEl : 0.63 * r ≤ Real.sqrt E := by
    refine Real.le_sqrt_of_sq_le ?_
    rw [mul_pow, rr]; norm_num; linarith
  have reb : Real.sqrt eb ≤ r := Real.sqrt_le_sqrt ebm
  have rebl : 0.99 * r ≤ Real.sqrt eb := by
    refine Real.le_sqrt_of_sq_le ?_
    rw [mul_pow, rr]; norm_num at ebl ⊢; linarith
  have a1 := l1.rel (by linarith)
  have a2 := l2.rel (by linarith)
  have a3 : |(F.sqrt E' - F.sqrt eb') - (Real.sqrt E - Real.sqrt eb)| ≤ 89.5 * (v * r) := by
    rw [show (F.sqrt E' - F.sqrt eb') - (Real.sqrt E - Real.sqrt eb) =
      (F.sqrt E' - Real.sqrt E) - (F.sqrt eb' - Real.sqrt eb) by ring]
    refine (abs_sub _ _).trans ?_
    have k1 := mul_le_mul_of_nonneg_left rE hv0
    have k2 := mul_le_mul_of_nonneg_left reb hv0
    linarith
  set x := Real.sqrt E - Real.sqrt eb with hx
  have xb : |x| ≤ 3.76 * (q * r) := by
    have e : x * (Real.sqrt E + Real.sqrt eb) = E - eb := by
      have h1 := Real.sq_sqrt (by linarith : 0 ≤ E)
      have h2 := Real.sq_sqrt (by linarith : 0 ≤ eb)
      calc x * (Real.sqrt E + Real.sqrt eb) = Real.sqrt E ^ 2 - Real.sqrt eb ^ 2 := by rw [hx]; ring
        _ = _ := by rw [h1, h2]
    have e2 : |E - eb| ≤ 6.08 * (q * mu) := by rw [abs_le]; constructor <;> linarith
    rw [← e, abs_mul, abs_of_nonneg (by positivity : 0 ≤ Real.sqrt E + Real.sqrt eb)] at e2
    have e3 : |x| * (1.62 * r) ≤ |x| * (Real.sqrt E + Real.sqrt eb) :=
      mul_le_mul_of_nonneg_left (by linarith) (abs_nonneg _)
    have e4 : |x| * (1.62 * r) ≤ 3.76 * (q * r) * (1.62 * r) := by
      refine (e3.trans e2).trans ?_
      have : q * mu = q * r * r := by rw [← rr]; ring
      rw [this]
      have : 0 ≤ q * r * r := by positivity
      linarith
    exact le_of_mul_le_mul_right e4 (by positivity)
  have vrq : v * r ≤ q / 10 ^ 6 * r := mul_le_mul_of_nonneg_right vq7 r0.le
  have qr0 : 0 < q * r := mul_pos hq r0
  have vqr : v * (q * r) ≤ 0.1 * (v * r) := by
    have := mul_le_mul_of_nonneg_left hq1 vr0
    linarith
  have a4 := rd_err hA huv a3 xb (by linarith)
  exact ⟨a4.trans (by linarith), xb⟩

theorem mg_square (hA : StandardModel A u) (huv : u ≤ v) (hmu : 0 < mu) (hq : 0 < q) (hq1 : q ≤ 1 / 10)
    (vq7 : v ≤ q / 10 ^ 6) {x x' : ℝ} (a5 : |x' - x| ≤ 90 * (v * Real.sqrt mu)) (xb : |x| ≤ 3.76 * (q * Real.sqrt mu)) :
    |A.rd (x' * x') - x ^ 2| ≤ 683 * (v * q * mu) ∧ |x ^ 2| ≤ 14.2 * (q ^ 2 * mu) := by
  have hv0 : 0 ≤ v := hA.u_nonneg.trans huv
  set r := Real.sqrt mu with hr
  have r0 : 0 < r := Real.sqrt_pos.2 hmu
  have rr : r ^ 2 = mu := Real.sq_sqrt hmu.le
  have qr0 : 0 < q * r := mul_pos hq r0
  have vrq : v * r ≤ q / 10 ^ 6 * r := mul_le_mul_of_nonneg_right vq7 r0.le
  have a6 := sq_err a5 xb (by linarith)
  have vqm0 : 0 ≤ v * q * mu := by positivity
  have a7 : |x' * x' - x ^ 2| ≤ 681 * (v * q * mu) := by
    refine a6.trans ?_
    have : 2.01 * (3.76 * (q * r)) * (90 * (v * r)) = 2.01 * 3.76 * 90 * (v * q * mu) := by rw [← rr]; ring
    rw [this]
    norm_num
    linarith
  have qm : 0 < q ^ 2 * mu := by positivity
  have x2b : |x ^ 2| ≤ 14.2 * (q ^ 2 * mu) := by
    rw [abs_pow]
    refine (pow_le_pow_left₀ (abs_nonneg _) xb 2).trans ?_
    have : (3.76 * (q * r)) ^ 2 = 3.76 ^ 2 * (q ^ 2 * mu) := by rw [← rr]; ring
    rw [this]
    norm_num
    linarith
  have k7 : v * q * mu ≤ q ^ 2 * mu / 10 ^ 6 := by
    have := mul_le_mul_of_nonneg_right vq7 (by positivity : 0 ≤ q * mu)
    calc v * q * mu = v * (q * mu) := by ring
      _ ≤ q / 10 ^ 6 * (q * mu) := this
      _ = _ := by ring
  have k8 : v * (q ^ 2 * mu) ≤ 0.1 * (v * q * mu) := by
    have := mul_le_mul_of_nonneg_left hq1 vqm0
    calc v * (q ^ 2 * mu) = v * q * mu * q := by ring
      _ ≤ v * q * mu * (1 / 10) := this
      _ = _ := by ring
  have a8 := rd_err hA huv a7 x2b (by linarith)
  exact ⟨a8.trans (by linarith), x2b⟩

set_option maxHeartbeats 1000000 in
/-- One density of the modified Gaussian. -/
theorem mgPdf_close (H : Moments A F u v q mu mu' sigma') {R : ℝ} (hR : v = R * q ^ 2) {E E' : ℝ}
    (hE : |E - mu| ≤ 6 * (q * mu)) (hE' : |E' - E| ≤ 50 * v * mu) :
    LC (310 * R) (mgPdfR A F (mgEBarR A F mu' sigma') (mgSigmaSqR A F mu' sigma') E') (modifiedGaussian mu (q * mu) E) := by
  obtain ⟨c1, c2⟩ := mgConst_close H hR
  obtain ⟨hA, hF, huv, hv, hmu, hq, hq1, hsm, hmean, hdev⟩ := H
  obtain ⟨s1, s2, s3, s4, s5⟩ := mg_facts hq hq1
  have h0 := hA.u_nonneg
  have hv0 : 0 ≤ v := h0.trans huv
  have hu : u ≤ 1 / 100 := by linarith
  have hv' : v ≤ 1 / 100 := by linarith
  have hw : 1.02 * u ≤ 1.02 * v := by linarith
  have q2 : q ^ 2 ≤ 1 / 100 := by nlinarith
  have q20 : 0 < q ^ 2 := by positivity
  have hR0 : 0 ≤ R := by
    by_contra hn
    push Not at hn
    have := mul_neg_of_neg_of_pos hn q20
    linarith
  have vR : v ≤ 0.01 * R := by rw [hR]; nlinarith
  have hRs : R ≤ 1 / 10 ^ 5 := by
    have : R * q ^ 2 ≤ 1 / 10 ^ 5 * q ^ 2 := by rw [← hR]; linarith
    exact le_of_mul_le_mul_right this q20
  have Rq0 : 0 ≤ R * q := mul_nonneg hR0 hq.le
  have vRq : v ≤ 0.1 * (R * q) := by rw [hR]; nlinarith
  have Rqs : R * q ≤ 0.1 * R := by nlinarith
  have vq7 : v ≤ q / 10 ^ 6 := hsm.trans (by nlinarith)
  have spec : modifiedGaussian mu (q * mu) E = Real.exp (-2 * (mu * Real.sqrt (1 - 1.5 * q ^ 2)) *
      (Real.sqrt E - Real.sqrt (mu * Real.sqrt (1 - 1.5 * q ^ 2))) ^ 2 /
      (4 / 3 * mu ^ 2 * (Real.sqrt (1 - 1.5 * q ^ 2) - (1 - 1.5 * q ^ 2)))) := by
    unfold modifiedGaussian
    have e : 1 - 3 / 2 * ((q * mu) ^ 2 / mu ^ 2) = 1 - 1.5 * q ^ 2 := by
      rw [mul_pow, mul_div_assoc, div_self (by positivity), mul_one]; norm_num
    simp only [e]
    congr 1
    ring
  rw [spec]
  unfold mgPdfR mgRootR
  set Fa := 1 - 1.5 * q ^ 2
  set S := Real.sqrt Fa
  set eb' := mgEBarR A F mu' sigma'
  set ss' := mgSigmaSqR A F mu' sigma'
  set eb := mu * S with heb
  set ss := 4 / 3 * mu ^ 2 * (S - Fa) with hss
  have ebm : eb ≤ mu := by rw [heb]; nlinarith
  have eb0 : 0 < eb := c1.2.1
  have s5' : mu - eb ≤ 0.08 * (q * mu) := by
    have := mul_le_mul_of_nonneg_left s5 hmu.le
    rw [heb]; linarith
  have ebl : 0.99 * mu ≤ eb := by
    have := mul_le_mul_of_nonneg_left s1 hmu.le
    rw [heb]; linarith
  obtain ⟨a5, xb⟩ := mg_root hA hF huv hv hmu hq hq1 vq7 ebl ebm s5' c1 hE hE'
  obtain ⟨a9, x2b⟩ := mg_square hA huv hmu hq hq1 vq7 a5 xb
  set x := Real.sqrt E - Real.sqrt eb with hx
  set Q' := A.rd (A.rd (F.sqrt E' - F.sqrt eb') * A.rd (F.sqrt E' - F.sqrt eb'))
  have vqm0 : 0 ≤ v * q * mu := by positivity
  have k7 : v * q * mu ≤ q ^ 2 * mu / 10 ^ 6 := by
    have := mul_le_mul_of_nonneg_right vq7 (by positivity : 0 ≤ q * mu)
    calc v * q * mu = v * (q * mu) := by ring
      _ ≤ q / 10 ^ 6 * (q * mu) := this
      _ = _ := by ring
  have k8 : v * (q ^ 2 * mu) ≤ 0.1 * (v * q * mu) := by
    have := mul_le_mul_of_nonneg_left hq1 vqm0
    calc v * (q ^ 2 * mu) = v * q * mu * q := by ring
      _ ≤ v * q * mu * (1 / 10) := this
      _ = _ := by ring
  -- minus twice the mean
  have g1 := mg_twice hA huv hv hmu ebm c1
  set G' := A.rd (-2 * eb')
  obtain ⟨b1, Nb⟩ := mg_product hv0 hv hmu hq hq1 eb0 ebm x2b a9 g1
  have qm0 : 0 < q ^ 2 * mu ^ 2 := by positivity
  have vqm20 : 0 ≤ v * q * mu ^ 2 := by positivity
  have k10 : v * q * mu ^ 2 ≤ q ^ 2 * mu ^ 2 / 10 ^ 6 := by
    have := mul_le_mul_of_nonneg_right k7 hmu.le
    calc v * q * mu ^ 2 = v * q * mu * mu := by ring
      _ ≤ q ^ 2 * mu / 10 ^ 6 * mu := this
      _ = _ := by ring
  have b2 := rd_err hA huv b1 Nb (by linarith)
  have b3 : |A.rd (G' * Q') - (-2 * eb) * x ^ 2| ≤ 1403 * (v * q * mu ^ 2) := by
    have k9 : v * (q ^ 2 * mu ^ 2) ≤ 0.1 * (v * q * mu ^ 2) := by
      have := mul_le_mul_of_nonneg_right k8 hmu.le
      calc v * (q ^ 2 * mu ^ 2) = v * (q ^ 2 * mu) * mu := by ring
        _ ≤ 0.1 * (v * q * mu) * mu := this
        _ = _ := by ring
    exact b2.trans (by linarith)
  have ssl : 0.993 * (q ^ 2 * mu ^ 2) ≤ ss := by
    have k := mul_le_mul_of_nonneg_left s3 (by positivity : 0 ≤ 4 / 3 * mu ^ 2)
    have k0 : 0 ≤ q ^ 2 * mu ^ 2 := by positivity
    have k1 : 4 / 3 * mu ^ 2 * (0.745 * q ^ 2) = 0.745 * 4 / 3 * (q ^ 2 * mu ^ 2) := by ring
    rw [k1] at k
    refine le_trans ?_ k
    norm_num
    linarith
  have b4 : |A.rd (G' * Q') - (-2 * eb) * x ^ 2| ≤ 1413 * (R * q) * ss := by
    refine b3.trans ?_
    have := mul_le_mul_of_nonneg_left ssl (by positivity : 0 ≤ 1413 * (R * q))
    have e : v * q * mu ^ 2 = R * q * (q ^ 2 * mu ^ 2) := by rw [hR]; ring
    rw [e]
    have : 0 ≤ R * q * (q ^ 2 * mu ^ 2) := by positivity
    linarith
  have b5 : |(-2 * eb) * x ^ 2| ≤ 28.7 * ss := by linarith
  have w1 := quot_err c2 (by linarith) b4 b5
  have ss0 := c2.2.1
  have w0 : |(-2 * eb) * x ^ 2 / ss| ≤ 28.7 := by
    rw [abs_div, abs_of_pos ss0, div_le_iff₀ ss0]; exact b5
  have w2 := rd_err hA huv w1 w0 (by linarith)
  have l3 := LC.exp (w2.trans (show _ ≤ 305 * R by linarith))
  exact ((lib_exp hF hv' _).trans l3).mono (by linarith)

end
end
end TNS
