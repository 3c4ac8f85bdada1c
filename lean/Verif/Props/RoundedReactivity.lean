import Verif.Spec.RoundedReactivity
import Verif.Lemmas.LogClose
import Verif.Props.Reactivity
import Mathlib.Analysis.Complex.ExponentialBounds
/-
C90: the Bosch-Hale reactivity survives rounding.
-/

set_option autoImplicit false

namespace TNS
open Spec
noncomputable section

/-- A Horner step with rounding: `rd (c' + rd (t * a'))` for `c + t * a`, where `B` and `C` bound the terms. -/
theorem horner_step {A : Arith} {u : ℝ} (hA : StandardModel A u) {t a a' B e c c' C : ℝ} (ht : 0 ≤ t)
    (ha : |a| ≤ B) (ha' : |a' - a| ≤ e * B) (he : 0 ≤ e) (hc : |c| ≤ C) (hc' : |c' - c| ≤ u * C) :
    |c + t * a| ≤ C + t * B ∧
    |A.rd (c' + A.rd (t * a')) - (c + t * a)| ≤ ((1 + e) * (1 + u) ^ 2 - 1) * (C + t * B) := by
  have h0 := hA.u_nonneg
  have hB : 0 ≤ B := (abs_nonneg _).trans ha
  have hC : 0 ≤ C := (abs_nonneg _).trans hc
  have g1 : |t * a| ≤ t * B := by rw [abs_mul, abs_of_nonneg ht]; exact mul_le_mul_of_nonneg_left ha ht
  have m : |t * a' - t * a| ≤ t * (e * B) := by
    rw [← mul_sub, abs_mul, abs_of_nonneg ht]; exact mul_le_mul_of_nonneg_left ha' ht
  have r1 := hA.rel (t * a')
  have m2 : |t * a'| ≤ t * B * (1 + e) := by
    have : t * a' = t * a + (t * a' - t * a) := by ring
    rw [this]
    refine (abs_add_le _ _).trans ?_
    nlinarith
  have s1 : |A.rd (t * a') - t * a| ≤ t * B * ((1 + e) * (1 + u) - 1) := by
    have : A.rd (t * a') - t * a = (A.rd (t * a') - t * a') + (t * a' - t * a) := by ring
    rw [this]
    refine (abs_add_le _ _).trans ?_
    nlinarith [mul_le_mul_of_nonneg_left m2 h0]
  have htB : 0 ≤ t * B := mul_nonneg ht hB
  have s2 : |(c' + A.rd (t * a')) - (c + t * a)| ≤ (C + t * B) * ((1 + e) * (1 + u) - 1) := by
    have : (c' + A.rd (t * a')) - (c + t * a) = (c' - c) + (A.rd (t * a') - t * a) := by ring
    rw [this]
    refine (abs_add_le _ _).trans ?_
    have : u * C ≤ C * ((1 + e) * (1 + u) - 1) := by nlinarith [mul_nonneg hC he, mul_nonneg hC (mul_nonneg he h0)]
    nlinarith
  have g2 : |c + t * a| ≤ C + t * B := (abs_add_le _ _).trans (add_le_add hc g1)
  refine ⟨g2, ?_⟩
  have m3 : |c' + A.rd (t * a')| ≤ (C + t * B) * ((1 + e) * (1 + u)) := by
    have : c' + A.rd (t * a') = (c + t * a) + ((c' + A.rd (t * a')) - (c + t * a)) := by ring
    rw [this]
    refine (abs_add_le _ _).trans ?_
    nlinarith
  have r2 := hA.rel (c' + A.rd (t * a'))
  have : A.rd (c' + A.rd (t * a')) - (c + t * a) =
    (A.rd (c' + A.rd (t * a')) - (c' + A.rd (t * a'))) + ((c' + A.rd (t * a')) - (c + t * a)) := by ring
  rw [this]
  refine (abs_add_le _ _).trans ?_
  nlinarith [mul_le_mul_of_nonneg_left m3 h0]

theorem lit_err {A : Arith} {u : ℝ} (hA : StandardModel A u) (c : ℝ) : |A.rd c - c| ≤ u * |c| := hA.rel c

/-- The sum of the absolute values of the terms of the numerator. -/
def absNum (b : BoschHale) (t : ℝ) : ℝ := t * (|b.c1| + t * (|b.c3| + t * |b.c5|))

/-- The sum of the absolute values of the terms of the denominator. -/
def absDen (b : BoschHale) (t : ℝ) : ℝ := 1 + t * (|b.c2| + t * (|b.c4| + t * |b.c6|))

theorem pow_small {u : ℝ} (h0 : 0 ≤ u) (h1 : u ≤ 1 / 10 ^ 5) :
    (1 + u) ^ 6 - 1 ≤ 6.01 * u ∧ (1 + u) ^ 7 - 1 ≤ 7.01 * u := by
  constructor <;> nlinarith [pow_nonneg h0 2, pow_nonneg h0 3, pow_nonneg h0 4, pow_nonneg h0 5, pow_nonneg h0 6,
    pow_nonneg h0 7, mul_le_mul_of_nonneg_left h1 h0, mul_le_mul_of_nonneg_left h1 (pow_nonneg h0 2),
    mul_le_mul_of_nonneg_left h1 (pow_nonneg h0 3), mul_le_mul_of_nonneg_left h1 (pow_nonneg h0 4),
    mul_le_mul_of_nonneg_left h1 (pow_nonneg h0 5), mul_le_mul_of_nonneg_left h1 (pow_nonneg h0 6)]

theorem mul_step {A : Arith} {u : ℝ} (hA : StandardModel A u) {t a a' B e : ℝ} (ht : 0 ≤ t)
    (ha : |a| ≤ B) (ha' : |a' - a| ≤ e * B) :
    |t * a| ≤ t * B ∧ |A.rd (t * a') - t * a| ≤ ((1 + e) * (1 + u) - 1) * (t * B) := by
  have h0 := hA.u_nonneg
  have g1 : |t * a| ≤ t * B := by rw [abs_mul, abs_of_nonneg ht]; exact mul_le_mul_of_nonneg_left ha ht
  refine ⟨g1, ?_⟩
  have m : |t * a' - t * a| ≤ t * (e * B) := by
    rw [← mul_sub, abs_mul, abs_of_nonneg ht]; exact mul_le_mul_of_nonneg_left ha' ht
  have r1 := hA.rel (t * a')
  have m2 : |t * a'| ≤ t * B * (1 + e) := by
    have : t * a' = t * a + (t * a' - t * a) := by ring
    rw [this]
    refine (abs_add_le _ _).trans ?_
    nlinarith
  have : A.rd (t * a') - t * a = (A.rd (t * a') - t * a') + (t * a' - t * a) := by ring
  rw [this]
  refine (abs_add_le _ _).trans ?_
  nlinarith [mul_le_mul_of_nonneg_left m2 h0]

theorem numR_err {A : Arith} {u : ℝ} (hA : StandardModel A u) (h1 : u ≤ 1 / 10 ^ 5) (b : BoschHale) (t : ℝ)
    (ht : 0 ≤ t) : |(b.lit A).numR A t - b.num t| ≤ 6.01 * u * absNum b t ∧ |b.num t| ≤ absNum b t := by
  have h0 := hA.u_nonneg
  obtain ⟨a1, a2⟩ := horner_step hA ht (le_refl |b.c5|) (lit_err hA b.c5) h0 (le_refl |b.c3|) (lit_err hA b.c3)
  have e1 : 0 ≤ (1 + u) * (1 + u) ^ 2 - 1 := by nlinarith [pow_nonneg h0 2, pow_nonneg h0 3]
  obtain ⟨b1, b2⟩ := horner_step hA ht a1 a2 e1 (le_refl |b.c1|) (lit_err hA b.c1)
  obtain ⟨c1, c2⟩ := mul_step hA ht b1 b2
  refine ⟨?_, c1⟩
  have e : (1 + ((1 + ((1 + u) * (1 + u) ^ 2 - 1)) * (1 + u) ^ 2 - 1)) * (1 + u) - 1 = (1 + u) ^ 6 - 1 := by ring
  rw [e] at c2
  exact c2.trans (mul_le_mul_of_nonneg_right (pow_small h0 h1).1 ((abs_nonneg _).trans c1))

theorem denR_err {A : Arith} {u : ℝ} (hA : StandardModel A u) (h1 : u ≤ 1 / 10 ^ 5) (b : BoschHale) (t : ℝ)
    (ht : 0 ≤ t) : |(b.lit A).denR A t - b.den t| ≤ 7.01 * u * absDen b t := by
  have h0 := hA.u_nonneg
  obtain ⟨a1, a2⟩ := horner_step hA ht (le_refl |b.c6|) (lit_err hA b.c6) h0 (le_refl |b.c4|) (lit_err hA b.c4)
  have e1 : 0 ≤ (1 + u) * (1 + u) ^ 2 - 1 := by nlinarith [pow_nonneg h0 2, pow_nonneg h0 3]
  obtain ⟨b1, b2⟩ := horner_step hA ht a1 a2 e1 (le_refl |b.c2|) (lit_err hA b.c2)
  have e2 : 0 ≤ (1 + ((1 + u) * (1 + u) ^ 2 - 1)) * (1 + u) ^ 2 - 1 := by
    nlinarith [pow_nonneg h0 2, pow_nonneg h0 3, pow_nonneg h0 4, pow_nonneg h0 5]
  obtain ⟨c1, c2⟩ := horner_step (C := 1) (c := 1) (c' := 1) hA ht b1 b2 e2 (by simp) (by simpa using h0)
  have e : (1 + ((1 + ((1 + u) * (1 + u) ^ 2 - 1)) * (1 + u) ^ 2 - 1)) * (1 + u) ^ 2 - 1 = (1 + u) ^ 7 - 1 := by ring
  rw [e] at c2
  exact c2.trans (mul_le_mul_of_nonneg_right (pow_small h0 h1).2 ((abs_nonneg _).trans c1))

/-- What the coefficient tables satisfy on the temperatures considered. -/
structure Tame (b : BoschHale) (t : ℝ) : Prop where
  t_pos : 0 < t
  num_le : absNum b t ≤ b.den t
  den_le : absDen b t ≤ 1.1 * b.den t
  gap : 0.6 * b.den t ≤ b.den t - b.num t

/-- `1 - frac` is computed with a small relative error. -/
theorem gap_err {A : Arith} {u : ℝ} (hA : StandardModel A u) (h1 : u ≤ 1 / 10 ^ 5) (b : BoschHale) (t : ℝ)
    (h : Tame b t) :
    0 < (b.lit A).denR A t ∧
    LC (30 * u) (A.rd (1 - A.rd ((b.lit A).numR A t / (b.lit A).denR A t))) (1 - b.num t / b.den t) := by
  have h0 := hA.u_nonneg
  obtain ⟨n1, n2⟩ := numR_err hA h1 b t h.t_pos.le
  have d1 := denR_err hA h1 b t h.t_pos.le
  have hD1 : 1 ≤ absDen b t := by
    unfold absDen
    have := h.t_pos.le
    have : 0 ≤ t * (|b.c2| + t * (|b.c4| + t * |b.c6|)) := by positivity
    linarith
  have hd : 0 < b.den t := by linarith [h.den_le]
  set N := b.num t
  set D := b.den t
  set N' := (b.lit A).numR A t
  set D' := (b.lit A).denR A t
  have n3 : |N' - N| ≤ 6.01 * u * D := n1.trans (mul_le_mul_of_nonneg_left h.num_le (by positivity))
  have n4 : |N| ≤ D := n2.trans h.num_le
  have d2 : |D' - D| ≤ 7.72 * u * D := d1.trans (by nlinarith [h.den_le, mul_nonneg h0 hd.le])
  have hD' : 0.99 * D ≤ D' := by
    have := (abs_le.1 d2).1
    nlinarith
  have hD'p : 0 < D' := by linarith
  refine ⟨hD'p, ?_⟩
  have f1 : |N' / D' - N / D| ≤ 14 * u := by
    have e : N' / D' - N / D = ((N' - N) * D - N * (D' - D)) / (D' * D) := by
      field_simp; ring
    rw [e, abs_div, abs_of_pos (mul_pos hD'p hd), div_le_iff₀ (mul_pos hD'p hd)]
    have t1 : |(N' - N) * D| ≤ 6.01 * u * D * D := by
      rw [abs_mul, abs_of_pos hd]; exact mul_le_mul_of_nonneg_right n3 hd.le
    have t2 : |N * (D' - D)| ≤ D * (7.72 * u * D) := by
      rw [abs_mul]; exact mul_le_mul n4 d2 (abs_nonneg _) hd.le
    have t3 := abs_sub ((N' - N) * D) (N * (D' - D))
    have t4 : u * (0.99 * D * D) ≤ u * (D' * D) :=
      mul_le_mul_of_nonneg_left (mul_le_mul_of_nonneg_right hD' hd.le) h0
    nlinarith [mul_nonneg h0 (mul_nonneg hd.le hd.le)]
  have nd : |N / D| ≤ 1 := by rw [abs_div, abs_of_pos hd, div_le_one hd]; exact n4
  have f2 : |A.rd (N' / D') - N / D| ≤ 15.01 * u := by
    have r := hA.rel (N' / D')
    have m : |N' / D'| ≤ 1.001 := by
      have : N' / D' = N / D + (N' / D' - N / D) := by ring
      rw [this]
      refine (abs_add_le _ _).trans ?_
      linarith
    have : A.rd (N' / D') - N / D = (A.rd (N' / D') - N' / D') + (N' / D' - N / D) := by ring
    rw [this]
    refine (abs_add_le _ _).trans ?_
    nlinarith
  have hg : 0.6 ≤ 1 - N / D := by
    have := h.gap
    have e : 1 - N / D = (D - N) / D := by field_simp
    rw [e, le_div_iff₀ hd]; exact this
  have g1 : |(1 - A.rd (N' / D')) - (1 - N / D)| ≤ 15.01 * u := by
    rw [show (1 - A.rd (N' / D')) - (1 - N / D) = -(A.rd (N' / D') - N / D) by ring, abs_neg]; exact f2
  have g2 : |(1 - A.rd (N' / D')) - (1 - N / D)| ≤ 25.02 * u * (1 - N / D) := g1.trans (by nlinarith)
  have l1 := LC.of_rel (by linarith : 0 < 1 - N / D) (by linarith) g2
  exact (LC.round hA (by linarith) (le_refl _) l1).mono (by linarith)

theorem lib_pow {F : MathLib} {v : ℝ} (hF : AccurateLib F v) (hv : v ≤ 1 / 100) (x y : ℝ) (hx : 0 < x) :
    LC (1.02 * v) (F.pow x y) (x ^ y) := LC.of_rel (Real.rpow_pos_of_pos hx y) hv (hF.pow x y hx)

theorem lib_sqrt {F : MathLib} {v : ℝ} (hF : AccurateLib F v) (hv : v ≤ 1 / 100) (x : ℝ) (hx : 0 < x) :
    LC (1.02 * v) (F.sqrt x) (Real.sqrt x) := LC.of_rel (Real.sqrt_pos.2 hx) hv (hF.sqrt x hx.le)

theorem lib_exp {F : MathLib} {v : ℝ} (hF : AccurateLib F v) (hv : v ≤ 1 / 100) (x : ℝ) :
    LC (1.02 * v) (F.exp x) (Real.exp x) := LC.of_rel (Real.exp_pos x) hv (hF.exp x)

/-- The error of one entry, in terms of bounds `M` for `chi` and `Λ` for the logarithm of its cube. -/
theorem entryR_err {A : Arith} {u v : ℝ} (hA : StandardModel A u) {F : MathLib} (hF : AccurateLib F v) (huv : u ≤ v)
    (hv : v ≤ 1 / 10 ^ 5) (b : BoschHale) (t : ℝ) (h : Tame b t) (hbg : 0 < b.bg) (hm : 0 < b.mrc2) (hc : 0 < b.c0)
    (M Λ : ℝ) (hM : (b.bg ^ 2 / (4 * (t / (1 - b.num t / b.den t)))) ^ ((1 : ℝ) / 3) ≤ M)
    (hΛ : |Real.log (b.bg ^ 2 / (4 * (t / (1 - b.num t / b.den t))))| ≤ Λ) (hs : Λ ≤ 30) :
    ∃ y, (b.lit A).entryR A F t = .ok y ∧
      LC ((55 + Λ + 3.2 * M * (15 + Λ / 3)) * v) y
        (1e-6 * b.c0 * (t / (1 - b.num t / b.den t)) *
          Real.sqrt ((b.bg ^ 2 / (4 * (t / (1 - b.num t / b.den t)))) ^ ((1 : ℝ) / 3) / (b.mrc2 * t ^ 3)) *
          Real.exp (-3 * (b.bg ^ 2 / (4 * (t / (1 - b.num t / b.den t)))) ^ ((1 : ℝ) / 3))) := by
  have h0 := hA.u_nonneg
  have hv0 : 0 ≤ v := h0.trans huv
  have hu5 : u ≤ 1 / 10 ^ 5 := huv.trans hv
  have hu2 : u ≤ 1 / 100 := by linarith
  have hv2 : v ≤ 1 / 100 := by linarith
  have hw : 1.02 * u ≤ 1.02 * v := by linarith
  have ht := h.t_pos
  obtain ⟨hden, hg⟩ := gap_err hA hu5 b t h
  have hg' := hg.mono (by linarith : 30 * u ≤ 30 * v)
  unfold BoschHale.entryR
  rw [if_pos ht]
  simp only
  rw [if_neg (by push Not; exact ⟨hden.ne', hg.1⟩)]
  refine ⟨_, rfl, ?_⟩
  set g' := A.rd (1 - A.rd ((b.lit A).numR A t / (b.lit A).denR A t))
  set g := 1 - b.num t / b.den t
  have gp : 0 < g := hg.2.1
  -- theta
  have l1 : LC (30 * v + 1.02 * v) (A.rd (t / g')) (t / g) := by
    have := (LC.refl ht).div hg'
    rw [zero_add] at this
    exact LC.round hA hu2 hw this
  set th' := A.rd (t / g')
  set th := t / g
  -- the argument of the cube root
  have l2 : LC (3.06 * v) (F.pow (b.lit A).bg 2) (b.bg ^ 2) := by
    have p1 : LC (1.02 * v) (A.rd b.bg) b.bg := LC.rd hA hu2 hw hbg
    have p2 := lib_pow hF hv2 (A.rd b.bg) 2 p1.1
    have p3 := p1.mul p1
    have e : A.rd b.bg ^ (2 : ℝ) = A.rd b.bg * A.rd b.bg := by
      rw [show (2 : ℝ) = ((2 : ℕ) : ℝ) by norm_num, Real.rpow_natCast]; ring
    rw [e] at p2
    have := p2.trans p3
    rw [← sq] at this
    exact this.mono (by linarith)
  have l3 : LC (36.3 * v) (A.rd (F.pow (b.lit A).bg 2 / A.rd (4 * th'))) (b.bg ^ 2 / (4 * th)) := by
    have p1 := LC.round hA hu2 hw (LC.mul_left (by norm_num : (0 : ℝ) < 4) l1)
    have p2 := LC.round hA hu2 hw (l2.div p1)
    exact p2.mono (by linarith)
  set x' := A.rd (F.pow (b.lit A).bg 2 / A.rd (4 * th'))
  set x := b.bg ^ 2 / (4 * th)
  have hx'Λ : |Real.log x'| ≤ Λ + 36.3 * v := by
    have : Real.log x' = Real.log x + (Real.log x' - Real.log x) := by ring
    rw [this]
    exact (abs_add_le _ _).trans (add_le_add hΛ l3.2.2)
  have hΛ0 : 0 ≤ Λ := (abs_nonneg _).trans hΛ
  have l4 : LC ((13.5 + Λ / 3) * v) (F.pow x' (A.rd (1 / 3))) (x ^ ((1 : ℝ) / 3)) := by
    have p1 := lib_pow hF hv2 x' (A.rd (1 / 3)) l3.1
    have q := hA.rel (1 / 3)
    rw [abs_of_pos (by norm_num : (0 : ℝ) < 1 / 3)] at q
    have p2 := l3.rpow (by norm_num : (0 : ℝ) ≤ 1 / 3) q hx'Λ
    refine (p1.trans p2).mono ?_
    have : u * (1 / 3) * (Λ + 36.3 * v) ≤ v * (1 / 3) * (Λ + 36.3 * v) := by
      have : 0 ≤ Λ + 36.3 * v := by linarith
      nlinarith
    nlinarith
  set ch' := F.pow x' (A.rd (1 / 3))
  set ch := x ^ ((1 : ℝ) / 3)
  have hK0 : 0 ≤ (13.5 + Λ / 3) * v := by positivity
  have hK1 : (13.5 + Λ / 3) * v ≤ 1 / 1000 := by nlinarith
  -- exp
  have l5 : LC ((3.2 * M * (15 + Λ / 3) + 1.02) * v) (F.exp (A.rd (-3 * ch'))) (Real.exp (-3 * ch)) := by
    have p1 := LC.round hA hu2 hw (LC.mul_left (by norm_num : (0 : ℝ) < 3) l4)
    have hchp := l4.2.1
    have q := hA.rel (-3 * ch')
    have q1 := l4.rel (by linarith)
    obtain ⟨q2, q3⟩ := abs_le.1 q1
    have hM0 : 0 < M := hchp.trans_le hM
    have q4 : |A.rd (-3 * ch') - -3 * ch| ≤ 3.2 * M * (15 + Λ / 3) * v := by
      have : A.rd (-3 * ch') - -3 * ch = (A.rd (-3 * ch') - -3 * ch') + -3 * (ch' - ch) := by ring
      rw [this]
      refine (abs_add_le _ _).trans ?_
      rw [abs_mul (-3), show |(-3 : ℝ)| = 3 by norm_num]
      have c1 : |-3 * ch'| ≤ 3.01 * ch := by
        rw [abs_mul, show |(-3 : ℝ)| = 3 by norm_num, abs_of_pos l4.1]
        nlinarith
      have c2 : u * |-3 * ch'| ≤ v * (3.01 * ch) := mul_le_mul huv c1 (abs_nonneg _) hv0
      have c3 : 3 * |ch' - ch| ≤ 3 * (1.02 * ((13.5 + Λ / 3) * v) * ch) := by linarith
      have c4 : v * (3.01 * ch) + 3 * (1.02 * ((13.5 + Λ / 3) * v) * ch) ≤ 3.2 * (15 + Λ / 3) * v * ch := by
        have : 0 ≤ v * ch := mul_nonneg hv0 hchp.le
        have : 0 ≤ Λ * (v * ch) := mul_nonneg hΛ0 this
        nlinarith
      have c5 : 3.2 * (15 + Λ / 3) * v * ch ≤ 3.2 * (15 + Λ / 3) * v * M :=
        mul_le_mul_of_nonneg_left hM (by positivity)
      linarith
    refine ((lib_exp hF hv2 _).trans (LC.exp q4)).mono (by linarith)
  -- the rest
  have l6 : LC (3.06 * v) (A.rd (A.rd 1e-6 * (b.lit A).c0)) (1e-6 * b.c0) := by
    have p1 : LC (1.02 * v) (A.rd 1e-6) 1e-6 := LC.rd hA hu2 hw (by norm_num)
    have p2 : LC (1.02 * v) (A.rd b.c0) b.c0 := LC.rd hA hu2 hw hc
    exact (LC.round hA hu2 hw (p1.mul p2)).mono (by linarith)
  have l7 := LC.round hA hu2 hw (l6.mul l1)
  have l8 : LC (3.06 * v) (A.rd ((b.lit A).mrc2 * F.pow t 3)) (b.mrc2 * t ^ 3) := by
    have p1 : LC (1.02 * v) (A.rd b.mrc2) b.mrc2 := LC.rd hA hu2 hw hm
    have p2 := lib_pow hF hv2 t 3 ht
    rw [show (3 : ℝ) = ((3 : ℕ) : ℝ) by norm_num, Real.rpow_natCast] at p2
    exact (LC.round hA hu2 hw (p1.mul p2)).mono (by linarith)
  have l9 := (LC.round hA hu2 hw (l4.div l8))
  have l10 := (lib_sqrt hF hv2 _ l9.1).trans l9.sqrt
  have l11 := LC.round hA hu2 hw (l7.mul l10)
  have l12 := LC.round hA hu2 hw (l11.mul l5)
  refine l12.mono ?_
  nlinarith [mul_nonneg hΛ0 hv0]

/-- The three tables are tame up to 100 keV. -/
theorem tame {r : Reaction} {b : BoschHale} (hb : r.boschHale = some b) (t : ℝ) (h0 : 0 < t) (h1 : t ≤ 100) :
    Tame b t := by
  have h2 : t * t ≤ 100 * t := mul_le_mul_of_nonneg_right h1 h0.le
  have h3 : t * t * t ≤ 100 * (t * t) := by nlinarith
  have h4 : 0 < t * t := by positivity
  have h5 : 0 < t * t * t := by positivity
  rcases r with (_ | _ | _) | (_ | _) <;> simp only [Reaction.boschHale, reduceCtorEq, Option.some.injEq] at hb
  all_goals subst hb
  all_goals refine ⟨h0, ?_, ?_, ?_⟩
  all_goals unfold BoschHale.den
  all_goals first | unfold absNum | unfold absDen | unfold BoschHale.num
  all_goals first | unfold TNS.boschHaleDT | unfold TNS.boschHaleDDn | unfold TNS.boschHaleDDp
  all_goals norm_num [abs_of_pos, abs_of_neg]
  all_goals nlinarith [sq_nonneg (t - 60), sq_nonneg (t - 100)]

theorem table_bounds {r : Reaction} {b : BoschHale} (hb : r.boschHale = some b) :
    (31 ≤ b.bg ∧ b.bg ≤ 34.383) ∧ 0 < b.mrc2 ∧ 0 < b.c0 := by
  rcases r with (_ | _ | _) | (_ | _) <;> simp only [Reaction.boschHale, reduceCtorEq, Option.some.injEq] at hb
  all_goals subst hb
  all_goals first | unfold TNS.boschHaleDT | unfold TNS.boschHaleDDn | unfold TNS.boschHaleDDp
  all_goals norm_num

/-- The argument of the cube root lies between 1 and `600 / t`. -/
theorem cube_bounds {r : Reaction} {b : BoschHale} (hb : r.boschHale = some b) (t : ℝ) (h0 : 0 < t) (h1 : t ≤ 100) :
    1 ≤ b.bg ^ 2 / (4 * (t / (1 - b.num t / b.den t))) ∧
      b.bg ^ 2 / (4 * (t / (1 - b.num t / b.den t))) ≤ 592 / t := by
  have h := tame hb t h0 h1
  obtain ⟨⟨b1, b2⟩, -, -⟩ := table_bounds hb
  have n2 : |b.num t| ≤ absNum b t := by
    have e1 : |t * b.c5| = t * |b.c5| := by rw [abs_mul, abs_of_pos h0]
    have e2 : |b.c3 + t * b.c5| ≤ |b.c3| + t * |b.c5| := (abs_add_le _ _).trans (by rw [e1])
    have e3 : |t * (b.c3 + t * b.c5)| ≤ t * (|b.c3| + t * |b.c5|) := by
      rw [abs_mul, abs_of_pos h0]; exact mul_le_mul_of_nonneg_left e2 h0.le
    unfold BoschHale.num absNum
    rw [abs_mul, abs_of_pos h0]
    exact mul_le_mul_of_nonneg_left ((abs_add_le _ _).trans (by linarith)) h0.le
  have hD1 : 1 ≤ absDen b t := by
    unfold absDen
    have := h0.le
    have : 0 ≤ t * (|b.c2| + t * (|b.c4| + t * |b.c6|)) := by positivity
    linarith
  have hd : 0 < b.den t := by linarith [h.den_le]
  have nd : |b.num t / b.den t| ≤ 1 := by
    rw [abs_div, abs_of_pos hd, div_le_one hd]; exact n2.trans h.num_le
  have hg : 0.6 ≤ 1 - b.num t / b.den t := by
    have e : 1 - b.num t / b.den t = (b.den t - b.num t) / b.den t := by field_simp
    rw [e, le_div_iff₀ hd]; exact h.gap
  have hg2 : 1 - b.num t / b.den t ≤ 2 := by linarith [(abs_le.1 nd).1]
  set g := 1 - b.num t / b.den t
  have gp : 0 < g := by linarith
  have e : b.bg ^ 2 / (4 * (t / g)) = b.bg ^ 2 * g / (4 * t) := by field_simp
  have q1 : 961 ≤ b.bg ^ 2 := by nlinarith
  have q2 : b.bg ^ 2 ≤ 1183 := by nlinarith
  rw [e, le_div_iff₀ (by positivity), div_le_div_iff₀ (by positivity) h0]
  constructor
  · nlinarith
  · have : b.bg ^ 2 * g ≤ 1183 * 2 := mul_le_mul q2 hg2 gp.le (by norm_num)
    nlinarith

theorem value_of_entry {r : Reaction} {b : BoschHale} (hb : r.boschHale = some b) (t : ℝ) (h0 : 0 < t)
    (h1 : t ≤ 100) :
    1e-6 * b.c0 * (t / (1 - b.num t / b.den t)) *
          Real.sqrt ((b.bg ^ 2 / (4 * (t / (1 - b.num t / b.den t)))) ^ ((1 : ℝ) / 3) / (b.mrc2 * t ^ 3)) *
          Real.exp (-3 * (b.bg ^ 2 / (4 * (t / (1 - b.num t / b.den t)))) ^ ((1 : ℝ) / 3)) =
      publishedReactivity r t := by
  have h : reactivityBoschHale [t] r = .ok [publishedReactivity r t] := by
    rcases r with (_ | _ | _) | (_ | _) <;> simp only [Reaction.boschHale, reduceCtorEq] at hb
    · exact (C52_DT t h0).1
    · exact (C52_DDn t h0 (by linarith)).1
    · exact (C52_DDp t h0).1
  have ht := tame hb t h0 h1
  have hD1 : 1 ≤ absDen b t := by
    unfold absDen
    have := h0.le
    have : 0 ≤ t * (|b.c2| + t * (|b.c4| + t * |b.c6|)) := by positivity
    linarith
  have hd : 0 < b.den t := by linarith [ht.den_le]
  have hg : 0.6 ≤ 1 - b.num t / b.den t := by
    have e : 1 - b.num t / b.den t = (b.den t - b.num t) / b.den t := by field_simp
    rw [e, le_div_iff₀ hd]; exact ht.gap
  have he : b.entry t = .ok (1e-6 * b.c0 * (t / (1 - b.num t / b.den t)) *
          Real.sqrt ((b.bg ^ 2 / (4 * (t / (1 - b.num t / b.den t)))) ^ ((1 : ℝ) / 3) / (b.mrc2 * t ^ 3)) *
          Real.exp (-3 * (b.bg ^ 2 / (4 * (t / (1 - b.num t / b.den t)))) ^ ((1 : ℝ) / 3))) := by
    unfold BoschHale.entry
    rw [if_pos h0]
    simp only
    rw [if_neg (by push Not; exact ⟨hd.ne', by linarith⟩)]
  have h2 : reactivityBoschHale [t] r = b.channel [t] := by unfold reactivityBoschHale; rw [hb]
  have h3 : b.channel [t] = (do let y ← b.entry t; Pure.pure [y]) := by
    unfold BoschHale.channel
    rw [if_neg (by simp)]
    simp [List.mapM_cons]
  rw [h2, h3, he] at h
  have h4 := Except.ok.inj h
  exact (List.cons.inj h4).1

theorem published_pos {r : Reaction} (hr : hasBoschHale r = true) (t : ℝ) (h0 : 0 < t) (h1 : t ≤ 100) :
    0 < publishedReactivity r t := by
  rcases r with (_ | _ | _) | (_ | _) <;> simp only [hasBoschHale, reduceCtorEq] at hr
  · exact (C52_DT t h0).2
  · exact (C52_DDn t h0 (by linarith)).2
  · exact (C52_DDp t h0).2
  all_goals cases hr

theorem entryR_bound {A : Arith} {u v : ℝ} (hA : StandardModel A u) {F : MathLib} (hF : AccurateLib F v) (huv : u ≤ v)
    (hv : v ≤ 1 / 10 ^ 6) {r : Reaction} {b : BoschHale} (hb : r.boschHale = some b) (t : ℝ) (h0 : 0 < t)
    (h1 : t ≤ 100) (M Λ : ℝ) (hM0 : 0 ≤ M) (hM : 592 / t ≤ M ^ 3) (hΛ0 : 0 ≤ Λ) (hΛ : 592 / t ≤ 2.7 ^ Λ) (hs : Λ ≤ 30) (K : ℝ)
    (hK : 1.02 * (55 + Λ + 3.2 * M * (15 + Λ / 3)) ≤ K) (hK2 : K ≤ 10000) :
    ∃ y, (b.lit A).entryR A F t = .ok y ∧
      |y - publishedReactivity r t| ≤ K * v * publishedReactivity r t := by
  obtain ⟨⟨c1, c2⟩, c3, c4⟩ := table_bounds hb
  obtain ⟨x1, x2⟩ := cube_bounds hb t h0 h1
  have hv0 : 0 ≤ v := hA.u_nonneg.trans huv
  have hp : 0 < b.bg ^ 2 / (4 * (t / (1 - b.num t / b.den t))) := by linarith
  obtain ⟨y, e, l⟩ := entryR_err hA hF huv (by linarith) b t (tame hb t h0 h1) (by linarith) c3 c4 M Λ (by
    calc _ ≤ (M ^ 3) ^ ((1 : ℝ) / 3) := Real.rpow_le_rpow hp.le (x2.trans hM) (by norm_num)
      _ = M := by
        rw [show M ^ 3 = M ^ ((3 : ℕ) : ℝ) by rw [Real.rpow_natCast], ← Real.rpow_mul hM0]
        norm_num) (by
    rw [abs_of_nonneg (Real.log_nonneg x1)]
    have l27 : Real.log 2.7 ≤ 1 := by
      rw [Real.log_le_iff_le_exp (by norm_num)]
      have := Real.exp_one_gt_d9
      linarith
    have l0 : 0 ≤ Real.log 2.7 := Real.log_nonneg (by norm_num)
    have q : Real.log (b.bg ^ 2 / (4 * (t / (1 - b.num t / b.den t)))) ≤ Λ * Real.log 2.7 := by
      rw [← Real.log_rpow (by norm_num)]
      exact Real.log_le_log hp (x2.trans hΛ)
    nlinarith) hs
  rw [value_of_entry hb t h0 h1] at l
  refine ⟨y, e, ?_⟩
  have := l.rel (by nlinarith)
  have hpp := l.2.1
  refine this.trans (mul_le_mul_of_nonneg_right ?_ hpp.le)
  nlinarith

/-- The accuracy claimed for one entry: exactly 0 at non-positive temperatures, `1000 v` in the range of the fit,
`5500 v` from 1 eV. -/
def EntryOK (v : ℝ) (r : Reaction) (t y : ℝ) : Prop :=
  (t ≤ 0 → y = 0) ∧
  (0.2 ≤ t → |y - publishedReactivity r t| ≤ 1000 * v * publishedReactivity r t) ∧
  (1 / 1000 ≤ t → |y - publishedReactivity r t| ≤ 5500 * v * publishedReactivity r t)

theorem entryR_ok {A : Arith} {u v : ℝ} (hA : StandardModel A u) {F : MathLib} (hF : AccurateLib F v) (huv : u ≤ v)
    (hv : v ≤ 1 / 10 ^ 6) {r : Reaction} {b : BoschHale} (hb : r.boschHale = some b) (t : ℝ)
    (ht : t ≤ 0 ∨ 1 / 1000 ≤ t ∧ t ≤ 100) : ∃ y, (b.lit A).entryR A F t = .ok y ∧ EntryOK v r t y := by
  rcases ht with ht | ⟨ht, h1⟩
  · refine ⟨0, ?_, fun _ => rfl, fun h => ?_, fun h => ?_⟩
    · unfold BoschHale.entryR
      rw [if_neg (by linarith)]
    · exact absurd h (by norm_num; linarith)
    · exact absurd h (by norm_num; linarith)
  · have h0 : 0 < t := lt_of_lt_of_le (by norm_num) ht
    have hv0 : 0 ≤ v := hA.u_nonneg.trans huv
    obtain ⟨y, e, hy⟩ := entryR_bound hA hF huv hv hb t h0 h1 84 14 (by norm_num)
      (by rw [div_le_iff₀ h0]; norm_num; linarith) (by norm_num)
      (by
        rw [div_le_iff₀ h0, show (14 : ℝ) = ((14 : ℕ) : ℝ) by norm_num, Real.rpow_natCast]
        norm_num; linarith) (by norm_num) 5500 (by norm_num) (by norm_num)
    refine ⟨y, e, fun h => by linarith, fun h => ?_, fun _ => hy⟩
    norm_num at h
    obtain ⟨y', e', hy'⟩ := entryR_bound hA hF huv hv hb t h0 h1 15 9 (by norm_num)
      (by rw [div_le_iff₀ h0]; norm_num; linarith) (by norm_num)
      (by
        rw [div_le_iff₀ h0, show (9 : ℝ) = ((9 : ℕ) : ℝ) by norm_num, Real.rpow_natCast]
        norm_num; linarith) (by norm_num) 1000 (by norm_num) (by norm_num)
    rw [e] at e'
    obtain rfl := Except.ok.inj e'
    exact hy'

theorem mapM_forall₂ {α β : Type} (f : α → Except Err β) (R : α → β → Prop) (l : List α)
    (h : ∀ a ∈ l, ∃ b, f a = .ok b ∧ R a b) : ∃ l', l.mapM f = .ok l' ∧ List.Forall₂ R l l' := by
  induction l with
  | nil => exact ⟨[], rfl, .nil⟩
  | cons a l ih =>
    obtain ⟨b, e, hb⟩ := h a (by simp)
    obtain ⟨l', e', hl⟩ := ih fun x hx => h x (by simp [hx])
    refine ⟨b :: l', ?_, .cons hb hl⟩
    simp [List.mapM_cons, e, e', Bind.bind, Except.bind, Pure.pure, Except.pure]

theorem boschHale_some {r : Reaction} (hr : hasBoschHale r = true) : ∃ b, r.boschHale = some b := by
  rcases r with (_ | _ | _) | (_ | _) <;> simp [hasBoschHale, Reaction.boschHale] at hr ⊢

/-- C90.  In floating point the Bosch-Hale reactivity of an array of temperatures never fails, and every entry is the
published value with a relative error of at most `1000 v` in the range of the fit (0.2 to 100 keV) and `5500 v` from
1 eV; entries at non-positive temperatures are exactly 0. -/
theorem C90_reactivity {A : Arith} {u v : ℝ} (hA : StandardModel A u) {F : MathLib} (hF : AccurateLib F v)
    (huv : u ≤ v) (hv : v ≤ 1 / 10 ^ 6) {r : Reaction} (hr : hasBoschHale r = true) (ts : List ℝ) (hne : ts ≠ [])
    (hts : ∀ t ∈ ts, t ≤ 0 ∨ 1 / 1000 ≤ t ∧ t ≤ 100) :
    ∃ ys, reactivityBoschHaleR A F ts r = .ok ys ∧ List.Forall₂ (fun t y =>
      (t ≤ 0 → y = 0) ∧
      (0.2 ≤ t → |y - publishedReactivity r t| ≤ 1000 * v * publishedReactivity r t) ∧
      (1 / 1000 ≤ t → |y - publishedReactivity r t| ≤ 5500 * v * publishedReactivity r t)) ts ys := by
  obtain ⟨b, hb⟩ := boschHale_some hr
  obtain ⟨ys, e, h⟩ := mapM_forall₂ ((b.lit A).entryR A F) (EntryOK v r) ts fun t ht =>
    entryR_ok hA hF huv hv hb t (hts t ht)
  refine ⟨ys, ?_, h⟩
  unfold reactivityBoschHaleR
  rw [hb]
  simp only
  rw [if_neg hne, e]

/-- C90.  With binary64 numbers and library functions accurate to 4 units of rounding (2 ulp), every
entry in the range of the fit agrees with the published value to 12 digits. -/
theorem C90_binary64 {F : MathLib} (hF : AccurateLib F (4 * (2 : ℝ) ^ (-53 : ℤ))) {r : Reaction}
    (hr : hasBoschHale r = true) (ts : List ℝ) (hne : ts ≠ []) (hts : ∀ t ∈ ts, 0.2 ≤ t ∧ t ≤ 100) :
    ∃ ys, reactivityBoschHaleR binary64 F ts r = .ok ys ∧ List.Forall₂ (fun t y =>
      |y - publishedReactivity r t| ≤ 1 / 10 ^ 12 * publishedReactivity r t) ts ys := by
  have h53 : (2 : ℝ) ^ (-53 : ℤ) ≤ 1.2 / 10 ^ 16 := by
    rw [zpow_neg, show ((2 : ℝ) ^ (53 : ℤ)) = 2 ^ 53 by norm_cast]; norm_num
  have hp : (0 : ℝ) < (2 : ℝ) ^ (-53 : ℤ) := by positivity
  obtain ⟨ys, e, h⟩ := C90_reactivity C74_binary64 hF (by linarith) (by linarith) hr ts hne
    (fun t ht => .inr ⟨by have := (hts t ht).1; norm_num at this ⊢; linarith, (hts t ht).2⟩)
  refine ⟨ys, e, ?_⟩
  rw [List.forall₂_iff_get] at h ⊢
  refine ⟨h.1, fun i h1 h2 => ?_⟩
  have ht := hts _ (List.get_mem ts ⟨i, h1⟩)
  have h0 : 0 < ts.get ⟨i, h1⟩ := lt_of_lt_of_le (by norm_num) ht.1
  refine ((h.2 i h1 h2).2.1 ht.1).trans ?_
  have := published_pos hr _ h0 ht.2
  exact mul_le_mul_of_nonneg_right (by linarith) this.le

/-- C90.  A source built in floating point from Bosch-Hale reactivities: the strength of a cell is density product x
published reactivity x volume, with a relative error of at most `1010 v` in the range of the fit. -/
theorem C90_strength {A : Arith} {u v : ℝ} (hA : StandardModel A u) {F : MathLib} (hF : AccurateLib F v)
    (huv : u ≤ v) (hv : v ≤ 1 / 10 ^ 6) (arg : SourceArg)
    (st : List Reaction) (hst : parseSourceType arg = .ok st) (x z vol temp d t h : List ℝ) (L : ℝ)
    (sv : Reaction → List ℝ)
    (hvol : ∀ a ∈ vol, 0 ≤ a) (hd : ∀ a ∈ d, 0 ≤ a) (ht : ∀ a ∈ t, 0 ≤ a) (hh : ∀ a ∈ h, 0 ≤ a)
    (hsv0 : ∀ r, ∀ a ∈ sv r, 0 ≤ a)
    (r : Reaction) (hr : r ∈ st) (hb : hasBoschHale r = true) (hsv : reactivityBoschHaleR A F temp r = .ok (sv r))
    (htemp : ∀ T ∈ temp, 0.2 ≤ T ∧ T ≤ 100)
    (i : ℕ) (di ti hi Ti vi : ℝ)
    (e1 : d[i]? = some di) (e2 : t[i]? = some ti) (e3 : h[i]? = some hi) (e4 : temp[i]? = some Ti)
    (e5 : vol[i]? = some vi) :
    let n : Species → ℝ := fun
      | .deuterium => di
      | .tritium => ti
      | .helium3 => hi
    ∃ str, (strengths (Source.initR A st x z vol temp d t h L sv) r)[i]? = some str ∧
      |str - rateDensity n (publishedReactivity r Ti) r * vi| ≤
        1010 * v * (rateDensity n (publishedReactivity r Ti) r * vi) := by
  intro n
  have h0 := hA.u_nonneg
  have hne : temp ≠ [] := by rintro rfl; simp at e4
  obtain ⟨ys, e, hy⟩ := C90_reactivity hA hF huv hv hb temp hne
    (fun t ht => .inr ⟨by have := (htemp t ht).1; norm_num at this ⊢; linarith, (htemp t ht).2⟩)
  rw [hsv] at e
  obtain rfl := Except.ok.inj e
  obtain ⟨hlen, hget⟩ := List.forall₂_iff_get.1 hy
  obtain ⟨hi1, hi2⟩ := List.getElem?_eq_some_iff.1 e4
  have hi1' : i < (sv r).length := hlen ▸ hi1
  have hTi := htemp Ti (List.mem_of_getElem? e4)
  have hs := (hget i hi1 hi1').2.1 (by simp only [List.get_eq_getElem, hi2]; exact hTi.1)
  simp only [List.get_eq_getElem, hi2] at hs
  have e6 : (sv r)[i]? = some (sv r)[i] := List.getElem?_eq_getElem hi1'
  obtain ⟨str, a1, a2⟩ := C74_strength hA (by linarith) arg st hst x z vol temp d t h L sv hvol hd ht hh hsv0 r hr i di
    ti hi _ vi e1 e2 e3 e6 e5
  refine ⟨str, a1, ?_⟩
  set y := (sv r)[i]
  set p := publishedReactivity r Ti
  have hp : 0 < p := published_pos hb Ti (lt_of_lt_of_le (by norm_num) hTi.1) hTi.2
  have m1 := hd _ (List.mem_of_getElem? e1)
  have m2 := ht _ (List.mem_of_getElem? e2)
  have m3 := hh _ (List.mem_of_getElem? e3)
  have m5 := hvol _ (List.mem_of_getElem? e5)
  have lin : ∀ q, rateDensity n q r = rateDensity n 1 r * q := by
    intro q; unfold rateDensity; ring
  have hn0 : 0 ≤ rateDensity n 1 r := by
    have hs : ∀ s, 0 ≤ n s := by intro s; cases s <;> assumption
    unfold rateDensity
    have := hs (reactants r).1
    have := hs (reactants r).2
    split_ifs <;> positivity
  change |str - rateDensity n y r * vi| ≤ 8 * u * (rateDensity n y r * vi) at a2
  rw [lin y] at a2
  rw [lin p]
  set c := rateDensity n 1 r
  have hcv : 0 ≤ c * vi := mul_nonneg hn0 m5
  have b1 : |c * y * vi - c * p * vi| ≤ 1000 * v * (c * p * vi) := by
    have : c * y * vi - c * p * vi = c * vi * (y - p) := by ring
    rw [this, abs_mul, abs_of_nonneg hcv]
    have := mul_le_mul_of_nonneg_left hs hcv
    linarith
  have b2 : str - c * p * vi = (str - c * y * vi) + (c * y * vi - c * p * vi) := by ring
  rw [b2]
  refine (abs_add_le _ _).trans ?_
  have b3 := (abs_le.1 b1).2
  have hE : 0 ≤ c * p * vi := mul_nonneg (mul_nonneg hn0 hp.le) m5
  have hvn : 0 ≤ v := h0.trans huv
  have b4 : c * y * vi ≤ 1.01 * (c * p * vi) := by nlinarith
  have b5 : 8 * u * (c * y * vi) ≤ 8 * v * (1.01 * (c * p * vi)) :=
    (mul_le_mul_of_nonneg_left b4 (by positivity)).trans
      (mul_le_mul_of_nonneg_right (by linarith) (by positivity))
  nlinarith [mul_nonneg hvn hE]

/-- C90.  Without rounding this is the Bosch-Hale reactivity of the exact model. -/
theorem C90_exact (ts : List ℝ) (r : Reaction) :
    reactivityBoschHaleR exactArith exactLib ts r = reactivityBoschHale ts r := by
  unfold reactivityBoschHaleR reactivityBoschHale
  cases hb : r.boschHale with
  | none => rfl
  | some b =>
    simp only
    unfold BoschHale.channel
    by_cases h : ts = []
    · rw [if_pos h, if_pos h]
    · rw [if_neg h, if_neg h]
      refine congrArg (fun f => ts.mapM f) (funext fun t => ?_)
      unfold BoschHale.entryR BoschHale.entry
      by_cases ht : 0 < t
      · rw [if_pos ht, if_pos ht]
        have e1 : (b.lit exactArith).numR exactArith t = b.num t := rfl
        have e2 : (b.lit exactArith).denR exactArith t = b.den t := rfl
        have l0 : (b.lit exactArith).c0 = b.c0 := rfl
        have l1 : (b.lit exactArith).bg = b.bg := rfl
        have l2 : (b.lit exactArith).mrc2 = b.mrc2 := rfl
        have rdid : ∀ x, exactArith.rd x = x := fun _ => rfl
        simp only [e1, e2, l0, l1, l2, rdid, exactLib]
        have e3 : t ^ (3 : ℝ) = t ^ 3 := by
          rw [show (3 : ℝ) = ((3 : ℕ) : ℝ) by norm_num, Real.rpow_natCast]
        have e4 : b.bg ^ (2 : ℝ) = b.bg ^ 2 := by
          rw [show (2 : ℝ) = ((2 : ℕ) : ℝ) by norm_num, Real.rpow_natCast]
        rw [e3, e4]
      · rw [if_neg ht, if_neg ht]

/-- Exact functions and correctly rounded ones are accurate libraries. -/
theorem accurate_libs : AccurateLib exactLib 0 ∧ AccurateLib roundedLib (4 * (2 : ℝ) ^ (-53 : ℤ)) := by
  refine ⟨⟨by simp [exactLib], by simp [exactLib], by simp [exactLib]⟩, ?_⟩
  have hp : (0 : ℝ) < (2 : ℝ) ^ (-53 : ℤ) := by positivity
  have key : ∀ y : ℝ, 0 ≤ y → |round53 y - y| ≤ 4 * (2 : ℝ) ^ (-53 : ℤ) * y := by
    intro y hy
    have := C74_binary64.rel y
    rw [abs_of_nonneg hy] at this
    refine this.trans (mul_le_mul_of_nonneg_right (by linarith) hy)
  exact ⟨fun x => key _ (Real.exp_pos x).le, fun x _ => key _ (Real.sqrt_nonneg x),
    fun x y hx => key _ (Real.rpow_pos_of_pos hx y).le⟩

/-- The hypotheses are met: three temperatures, binary64, correctly rounded library functions. -/
example : ∃ ys, reactivityBoschHaleR binary64 roundedLib [0.2, 15, 100] .DT = .ok ys ∧ ys.length = 3 ∧
    ∀ y ∈ ys, 0 < y := by
  obtain ⟨ys, e, h⟩ := C90_binary64 accurate_libs.2 (r := .DT) rfl [0.2, 15, 100] (by simp) (by
    intro t ht
    fin_cases ht <;> norm_num)
  refine ⟨ys, e, h.length_eq.symm, ?_⟩
  have pos : ∀ t y : ℝ, 0.2 ≤ t ∧ t ≤ 100 → |y - publishedReactivity .DT t| ≤ 1 / 10 ^ 12 * publishedReactivity .DT t →
      0 < y := by
    intro t y ht hy
    have := published_pos (r := .DT) rfl t (lt_of_lt_of_le (by norm_num) ht.1) ht.2
    have := (abs_le.1 hy).1
    nlinarith
  rcases h with _ | ⟨h1, h⟩
  rcases h with _ | ⟨h2, h⟩
  rcases h with _ | ⟨h3, h⟩
  cases h
  intro y hy
  simp only [List.mem_cons, List.not_mem_nil, or_false] at hy
  rcases hy with rfl | rfl | rfl
  · exact pos _ _ (by norm_num) h1
  · exact pos _ _ (by norm_num) h2
  · exact pos _ _ (by norm_num) h3

end
end TNS
