import Verif.Model.RoundedEnergy
import Verif.Props.RoundedReactivity
import Verif.Props.Energy
import Verif.Lemmas.XsTrap
/-
C99, first part: mean and standard deviation of the D-T and D-D spectra survive rounding.
-/

set_option autoImplicit false

namespace TNS
open Spec
noncomputable section

theorem LC.le_exp {ε a b : ℝ} (h : LC ε a b) : a ≤ b * Real.exp ε := by
  obtain ⟨ha, hb, h1⟩ := h
  have h2 := (abs_le.1 h1).2
  have : Real.log a ≤ Real.log b + ε := by linarith
  calc a = Real.exp (Real.log a) := (Real.exp_log ha).symm
    _ ≤ Real.exp (Real.log b + ε) := Real.exp_le_exp.2 this
    _ = b * Real.exp ε := by rw [Real.exp_add, Real.exp_log hb]

theorem LC.of_exp {ε a b : ℝ} (ha : 0 < a) (hb : 0 < b) (h1 : a ≤ b * Real.exp ε) (h2 : b ≤ a * Real.exp ε) : LC ε a b := by
  refine ⟨ha, hb, ?_⟩
  have l1 := Real.log_le_log ha h1
  have l2 := Real.log_le_log hb h2
  rw [Real.log_mul hb.ne' (Real.exp_ne_zero _), Real.log_exp] at l1
  rw [Real.log_mul ha.ne' (Real.exp_ne_zero _), Real.log_exp] at l2
  rw [abs_le]; constructor <;> linarith

theorem LC.add {ε a b c d : ℝ} (h : LC ε a b) (h' : LC ε c d) : LC ε (a + c) (b + d) := by
  refine LC.of_exp (add_pos h.1 h'.1) (add_pos h.2.1 h'.2.1) ?_ ?_
  · rw [add_mul]; exact add_le_add h.le_exp h'.le_exp
  · rw [add_mul]; exact add_le_add h.symm.le_exp h'.symm.le_exp

/-- Rounding a number with a known error. -/
theorem rd_err {A : Arith} {u v : ℝ} (hA : StandardModel A u) (huv : u ≤ v) {x x' e M : ℝ} (h : |x' - x| ≤ e)
    (hM : |x| ≤ M) (he : e ≤ M / 100) : |A.rd x' - x| ≤ e + 1.01 * v * M := by
  have h0 := hA.u_nonneg
  have hM0 : 0 ≤ M := (abs_nonneg _).trans hM
  have m : |x'| ≤ 1.01 * M := by
    have : x' = x + (x' - x) := by ring
    rw [this]
    refine (abs_add_le _ _).trans ?_
    linarith
  have r := hA.rel x'
  have : A.rd x' - x = (A.rd x' - x') + (x' - x) := by ring
  rw [this]
  refine (abs_add_le _ _).trans ?_
  have m1 : u * |x'| ≤ v * (1.01 * M) := mul_le_mul huv m (abs_nonneg _) (h0.trans huv)
  linarith

theorem log_temp {t : ℝ} (h1 : 1 / 10 ≤ t) (h2 : t ≤ 40) : |Real.log t| ≤ 4 := by
  have ht : 0 < t := by linarith
  have e1 : (2.7 : ℝ) < Real.exp 1 := by have := Real.exp_one_gt_d9; linarith
  have e4 : (40 : ℝ) ≤ Real.exp 4 := by
    have : Real.exp 4 = Real.exp 1 ^ 4 := by rw [← Real.exp_nat_mul]; norm_num
    rw [this]
    calc (40 : ℝ) ≤ 2.7 ^ 4 := by norm_num
      _ ≤ _ := pow_le_pow_left₀ (by norm_num) e1.le 4
  rw [abs_le]
  constructor
  · rw [Real.le_log_iff_exp_le ht, Real.exp_neg]
    refine le_trans ?_ h1
    rw [inv_le_comm₀ (Real.exp_pos _) (by norm_num)]
    linarith
  · rw [Real.log_le_iff_le_exp ht]; linarith

section fit
variable {A : Arith} {F : MathLib} {u v : ℝ}

/-- What the fits satisfy on the temperatures considered. -/
structure TameFit (c : BallabioCoefficients) (t : ℝ) : Prop where
  a1 : 0 < c.a1
  a3 : 0 ≤ c.a3
  a3' : c.a3 ≤ 2
  a4 : 0 < c.a4
  den : 7 / 10 ≤ 1 + c.a2 * t ^ c.a3
  term : |c.a2 * t ^ c.a3| ≤ 1 + c.a2 * t ^ c.a3

theorem fitR_err (hA : StandardModel A u) (hF : AccurateLib F v) (huv : u ≤ v) (hv : v ≤ 1 / 10 ^ 10)
    {c : BallabioCoefficients} {t : ℝ} (h1 : 1 / 10 ≤ t) (h2 : t ≤ 40) (h : TameFit c t) :
    0 < (c.lit A).denR A F t ∧ LC (32 * v) ((c.lit A).fitR A F t) (c.fit t) := by
  have h0 := hA.u_nonneg
  have hv0 : 0 ≤ v := h0.trans huv
  have hu : u ≤ 1 / 100 := by linarith
  have hv' : v ≤ 1 / 100 := by linarith
  have hw : 1.02 * u ≤ 1.02 * v := by linarith
  have ht : 0 < t := by linarith
  have hlog := log_temp h1 h2
  set D := 1 + c.a2 * t ^ c.a3 with hD
  set X := c.a2 * t ^ c.a3 with hX
  -- the power
  have p1 : LC (9.2 * v) (F.pow t (A.rd c.a3)) (t ^ c.a3) := by
    have a := lib_pow hF hv' t (A.rd c.a3) ht
    have r3 : |A.rd c.a3 - c.a3| ≤ 2 * v := by
      refine (hA.rel c.a3).trans ?_
      rw [abs_of_nonneg h.a3]
      have := mul_le_mul huv h.a3' h.a3 hv0
      linarith
    have b := (LC.refl ht).rpow (p := A.rd c.a3) (q := c.a3) h.a3 r3 hlog
    exact (a.trans b).mono (by linarith)
  have p1r := p1.rel (by linarith)
  -- the product
  have hP := p1.2.1
  have x1 : |A.rd c.a2 * F.pow t (A.rd c.a3) - X| ≤ 10.5 * v * |X| := by
    have r2 := hA.rel c.a2
    set a2' := A.rd c.a2
    set P' := F.pow t (A.rd c.a3)
    have e : a2' * P' - X = (a2' - c.a2) * (t ^ c.a3) + (a2' - c.a2) * (P' - t ^ c.a3) + c.a2 * (P' - t ^ c.a3) := by
      rw [hX]; ring
    have aX : |X| = |c.a2| * t ^ c.a3 := by rw [hX, abs_mul, abs_of_pos hP]
    have c0 := abs_nonneg c.a2
    have t1 : |(a2' - c.a2) * (t ^ c.a3)| ≤ v * |X| := by
      rw [abs_mul, abs_of_pos hP, aX, ← mul_assoc]
      refine mul_le_mul_of_nonneg_right (r2.trans ?_) hP.le
      exact mul_le_mul_of_nonneg_right huv c0
    have p1r' : |P' - t ^ c.a3| ≤ 9.4 * v * t ^ c.a3 := p1r.trans (by nlinarith [mul_nonneg hv0 hP.le])
    have t2 : |c.a2 * (P' - t ^ c.a3)| ≤ 9.4 * v * |X| := by
      rw [abs_mul, aX]
      have := mul_le_mul_of_nonneg_left p1r' c0
      linarith
    have t3 : |(a2' - c.a2) * (P' - t ^ c.a3)| ≤ 0.1 * v * |X| := by
      rw [abs_mul, aX]
      have s1 : |a2' - c.a2| ≤ v * |c.a2| := r2.trans (mul_le_mul_of_nonneg_right huv c0)
      have s2 : |P' - t ^ c.a3| ≤ 0.1 * t ^ c.a3 := p1r'.trans (by nlinarith)
      have := mul_le_mul s1 s2 (abs_nonneg _) (mul_nonneg hv0 c0)
      linarith
    rw [e]
    refine (abs_add_le _ _).trans ((add_le_add (abs_add_le _ _) le_rfl).trans ?_)
    linarith
  have hXD : |X| ≤ D := h.term
  have hDp : 0 < D := by linarith [h.den]
  have x2 : |A.rd c.a2 * F.pow t (A.rd c.a3) - X| ≤ 10.5 * v * D := x1.trans (by nlinarith)
  have x3 := rd_err hA huv x2 hXD (by nlinarith)
  have x4 : |(1 + A.rd (A.rd c.a2 * F.pow t (A.rd c.a3))) - D| ≤ 11.51 * v * D := by
    have : (1 + A.rd (A.rd c.a2 * F.pow t (A.rd c.a3))) - D = A.rd (A.rd c.a2 * F.pow t (A.rd c.a3)) - X := by
      rw [hD]; ring
    rw [this]; linarith
  have x5 := rd_err hA huv x4 (le_of_eq (abs_of_pos hDp)) (by nlinarith)
  have x6 : LC (12.8 * v) ((c.lit A).denR A F t) D := by
    refine (LC.of_rel (ε := 12.52 * v) hDp (by linarith) ?_).mono (by linarith)
    refine le_trans x5 (by linarith)
  refine ⟨x6.1, ?_⟩
  -- the rest
  have q1 : LC (1.02 * v) (A.rd c.a1) c.a1 := LC.rd hA hu hw h.a1
  have q2 := LC.round hA hu hw (q1.div x6)
  have q3 : LC (3.8 * v) (F.pow t (A.rd (2 / 3))) (t ^ ((2 : ℝ) / 3)) := by
    have a := lib_pow hF hv' t (A.rd (2 / 3)) ht
    have r3 : |A.rd ((2 : ℝ) / 3) - 2 / 3| ≤ 2 / 3 * v := by
      refine (hA.rel _).trans ?_
      rw [abs_of_pos (by norm_num)]
      linarith
    have b := (LC.refl ht).rpow (p := A.rd (2 / 3)) (q := 2 / 3) (by norm_num) r3 hlog
    exact (a.trans b).mono (by linarith)
  have q4 := LC.round hA hu hw (q2.mul q3)
  have q5 : LC (1.02 * v) (A.rd c.a4) c.a4 := LC.rd hA hu hw h.a4
  have q6 := LC.round hA hu hw (q5.mul (LC.refl ht))
  have q7 := LC.round hA hu hw ((q4.mono (δ := 25 * v) (by linarith)).add (q6.mono (δ := 25 * v) (by linarith)))
  exact q7.mono (by linarith)

/-- A large constant plus a small fit. -/
theorem plus_fit (hA : StandardModel A u) (huv : u ≤ v) (hv : v ≤ 1 / 10 ^ 10) {a a' f f' : ℝ} (ha : 0 < a)
    (ha' : |a' - a| ≤ v * a) (hf : LC (32 * v) f' f) (hs : f ≤ a / 15) :
    LC (4.4 * v) (A.rd (a' + f')) (a + f) := by
  have hv0 : 0 ≤ v := hA.u_nonneg.trans huv
  have r := hf.rel (by linarith)
  have hf0 := hf.2.1
  have s : |(a' + f') - (a + f)| ≤ 3.2 * v * (a + f) := by
    have : (a' + f') - (a + f) = (a' - a) + (f' - f) := by ring
    rw [this]
    refine (abs_add_le _ _).trans ?_
    nlinarith [mul_nonneg hv0 ha.le, mul_nonneg hv0 hf0.le, mul_le_mul_of_nonneg_left hs hv0]
  have s2 := rd_err hA huv s (le_of_eq (abs_of_pos (by linarith : 0 < a + f))) (by nlinarith)
  refine (LC.of_rel (ε := 4.21 * v) (by linarith : 0 < a + f) (by linarith) (s2.trans ?_)).mono (by linarith)
  linarith

theorem fit_bounds {c : BallabioCoefficients} {t : ℝ} (ht : 0 < t) (h2 : t ≤ 40) (h : TameFit c t) {d B : ℝ}
    (hd0 : 0 < d) (hd : d ≤ 1 + c.a2 * t ^ c.a3) (hB : c.a1 * 12 / d + c.a4 * 40 ≤ B) : 0 < c.fit t ∧ c.fit t ≤ B := by
  obtain ⟨p1, p2⟩ := rpow_two_thirds t ht h2
  have hD : 0 < 1 + c.a2 * t ^ c.a3 := by linarith
  unfold BallabioCoefficients.fit
  have h1 := h.a1
  have h4 := h.a4
  refine ⟨by positivity, le_trans ?_ hB⟩
  refine add_le_add ?_ (mul_le_mul_of_nonneg_left h2 h4.le)
  rw [div_mul_eq_mul_div]
  exact div_le_div₀ (by positivity) (mul_le_mul_of_nonneg_left p2 h1.le) hd0 hd

theorem tame_pos {c : BallabioCoefficients} {t : ℝ} (ht : 0 < t) (h1 : 0 < c.a1) (h2 : 0 < c.a2) (h3 : 0 ≤ c.a3)
    (h3' : c.a3 ≤ 2) (h4 : 0 < c.a4) : TameFit c t := by
  have hp := mul_pos h2 (Real.rpow_pos_of_pos ht c.a3)
  exact ⟨h1, h3, h3', h4, by linarith, by rw [abs_of_pos hp]; linarith⟩

/-- What is used of the mean and the standard deviation of a spectrum. -/
structure TameMoments (mu sigma t : ℝ) : Prop where
  mu_pos : 1 ≤ mu
  lower : 0.0053 * Real.sqrt t * mu ≤ sigma
  upper : sigma ≤ mu / 10

/-- Mean and standard deviation in floating point. -/
theorem moments_err (hA : StandardModel A u) (hF : AccurateLib F v) (huv : u ≤ v) (hv : v ≤ 1 / 10 ^ 10)
    {t : ℝ} (h1 : 1 / 10 ≤ t) (h2 : t ≤ 40) {r : Neutronic} {b : Ballabio} (hb : (Reaction.n r).ballabio = some b) :
    0 < (b.lit A).shift.denR A F t ∧ 0 < (b.lit A).width.denR A F t ∧
    LC (4.4 * v) ((b.lit A).meanEnergyR A F t) (b.meanEnergy t) ∧
    LC (11 * v) ((b.lit A).stdDeviationR A F t) (b.stdDeviation t) ∧
    TameMoments (b.meanEnergy t) (b.stdDeviation t) t := by
  have h0 := hA.u_nonneg
  have hv0 : 0 ≤ v := h0.trans huv
  have hu : u ≤ 1 / 100 := by linarith
  have hw : 1.02 * u ≤ 1.02 * v := by linarith
  have ht : 0 < t := by linarith
  have facts : TameFit b.shift t ∧ TameFit b.width t ∧ 0 < b.energy0 ∧ 0 < b.omega0 ∧ 0 < b.shift.fit t ∧
      b.shift.fit t ≤ b.energy0 / 15 ∧ 0 < b.width.fit t ∧ b.width.fit t ≤ 1 / 15 ∧
      TameMoments (b.meanEnergy t) (b.stdDeviation t) t := by
    obtain ⟨s1, s2⟩ := sqrt_bounds t ht h2
    cases r with
    | D_T =>
      obtain rfl : ballabioDT = b := by simpa [Reaction.ballabio] using hb
      have f1 : TameFit ballabioDT.shift t := tame_pos ht (by norm_num [ballabioDT]) (by norm_num [ballabioDT])
        (by norm_num [ballabioDT]) (by norm_num [ballabioDT]) (by norm_num [ballabioDT])
      have f2 : TameFit ballabioDT.width t := tame_pos ht (by norm_num [ballabioDT]) (by norm_num [ballabioDT])
        (by norm_num [ballabioDT]) (by norm_num [ballabioDT]) (by norm_num [ballabioDT])
      obtain ⟨b1, b2⟩ := fit_bounds (d := 7 / 10) (B := 150) ht h2 f1 (by norm_num) f1.den (by norm_num [ballabioDT])
      obtain ⟨b3, b4⟩ := fit_bounds (d := 7 / 10) (B := 1 / 50) ht h2 f2 (by norm_num) f2.den (by norm_num [ballabioDT])
      refine ⟨f1, f2, by norm_num [ballabioDT], by norm_num [ballabioDT], b1, b2.trans (by norm_num [ballabioDT]), b3,
        by linarith, ?_⟩
      set f := ballabioDT.shift.fit t
      set g := ballabioDT.width.fit t
      have em : ballabioDT.meanEnergy t = 14021 + f := by
        show ballabioDT.energy0 + f = _
        norm_num [ballabioDT]
      have es : ballabioDT.stdDeviation t = 177.259 * (1 + g) * Real.sqrt t / 2.3548200450309493 := rfl
      rw [em, es]
      refine ⟨by linarith, ?_, ?_⟩
      · rw [le_div_iff₀ (by norm_num)]
        have : 0.0053 * (14021 + f) * 2.3548200450309493 ≤ 177.259 * (1 + g) := by norm_num at *; linarith
        nlinarith
      · rw [div_le_iff₀ (by norm_num)]
        have e1 : 177.259 * (1 + g) * Real.sqrt t ≤ 177.259 * (1 + 1 / 50) * 6.33 := by gcongr
        refine e1.trans ?_
        norm_num
        linarith
    | D_D =>
      obtain rfl : ballabioDD = b := by simpa [Reaction.ballabio] using hb
      obtain ⟨q1, q2⟩ := rpow_bounds t 0.47 ht h2 (by norm_num) (by norm_num)
      have f1 : TameFit ballabioDD.shift t := by
        have e : ballabioDD.shift.a2 * t ^ ballabioDD.shift.a3 = -0.040729 * t ^ (0.47 : ℝ) := rfl
        refine ⟨by norm_num [ballabioDD], by norm_num [ballabioDD], by norm_num [ballabioDD], by norm_num [ballabioDD],
          ?_, ?_⟩
        · rw [e]; norm_num at *; linarith
        · rw [e, abs_le]; constructor <;> norm_num at * <;> linarith
      have f2 : TameFit ballabioDD.width t := tame_pos ht (by norm_num [ballabioDD]) (by norm_num [ballabioDD])
        (by norm_num [ballabioDD]) (by norm_num [ballabioDD]) (by norm_num [ballabioDD])
      have f2d : (1 : ℝ) ≤ 1 + ballabioDD.width.a2 * t ^ ballabioDD.width.a3 := by
        have : 0 < ballabioDD.width.a2 * t ^ ballabioDD.width.a3 :=
          mul_pos (by norm_num [ballabioDD]) (Real.rpow_pos_of_pos ht _)
        linarith
      obtain ⟨b1, b2⟩ := fit_bounds (d := 7 / 10) (B := 120) ht h2 f1 (by norm_num) f1.den (by norm_num [ballabioDD])
      obtain ⟨b3, b4⟩ := fit_bounds (d := 1) (B := 1 / 19) ht h2 f2 (by norm_num) f2d (by norm_num [ballabioDD])
      refine ⟨f1, f2, by norm_num [ballabioDD], by norm_num [ballabioDD], b1, b2.trans (by norm_num [ballabioDD]), b3,
        by linarith, ?_⟩
      set f := ballabioDD.shift.fit t
      set g := ballabioDD.width.fit t
      have em : ballabioDD.meanEnergy t = 2449.5 + f := by
        show ballabioDD.energy0 + f = _
        norm_num [ballabioDD]
      have es : ballabioDD.stdDeviation t = 82.542 * (1 + g) * Real.sqrt t / 2.3548200450309493 := rfl
      rw [em, es]
      refine ⟨by linarith, ?_, ?_⟩
      · rw [le_div_iff₀ (by norm_num)]
        have : 0.0053 * (2449.5 + f) * 2.3548200450309493 ≤ 82.542 * (1 + g) := by norm_num at *; linarith
        nlinarith
      · rw [div_le_iff₀ (by norm_num)]
        have e1 : 82.542 * (1 + g) * Real.sqrt t ≤ 82.542 * (1 + 1 / 19) * 6.33 := by gcongr
        refine e1.trans ?_
        norm_num
        linarith
    | T_T => simp [Reaction.ballabio] at hb
  obtain ⟨f1, f2, e0, w0, g1, g2, g3, g4, hm⟩ := facts
  obtain ⟨d1, l1⟩ := fitR_err hA hF huv hv h1 h2 f1
  obtain ⟨d2, l2⟩ := fitR_err hA hF huv hv h1 h2 f2
  refine ⟨d1, d2, ?_, ?_, hm⟩
  · refine plus_fit hA huv hv e0 ?_ l1 g2
    refine (hA.rel _).trans ?_
    rw [abs_of_pos e0]
    exact mul_le_mul_of_nonneg_right huv e0.le
  · have p1 : LC (4.4 * v) (A.rd (1 + (b.lit A).width.fitR A F t)) (1 + b.width.fit t) :=
      plus_fit hA huv hv one_pos (by simpa using hv0) l2 (by linarith)
    have p2 := LC.round hA hu hw ((LC.rd hA hu hw w0).mul p1)
    have p3 := LC.round hA hu hw (p2.mul (lib_sqrt hF (by linarith) t ht))
    have p4 : LC (1.02 * v) (A.rd twoSqrt2Ln2) twoSqrt2Ln2 := LC.rd hA hu hw (by norm_num [twoSqrt2Ln2])
    have p5 := LC.round hA hu hw (p3.div p4)
    exact p5.mono (by linarith)

end fit
end
end TNS
