import Verif.Lemmas.XsGridRound
/-
The prefactor and the integrand of the Maxwell average with rounding.
-/

set_option autoImplicit false

namespace TNS
open Spec
noncomputable section

variable {A : Arith} {F : MathLib} {u v η : ℝ}

/-- The prefactor of the Maxwell average. -/
def maxwellFactor (μ kT : ℝ) : ℝ := Real.sqrt (8 / (Real.pi * μ)) * kT ^ (-(3 : ℝ) / 2)

theorem maxwellFactor_eq {μ kT : ℝ} (hμ : 0 < μ) (hkT : 0 < kT) :
    maxwellFactor μ kT = 4 / Real.sqrt (2 * Real.pi * μ) / kT ^ (1.5 : ℝ) := by
  have e2 : kT ^ (-(3 : ℝ) / 2) = 1 / kT ^ ((3 : ℝ) / 2) := by
    rw [neg_div, Real.rpow_neg hkT.le, one_div]
  have e3 : Real.sqrt (8 / (Real.pi * μ)) = 4 / Real.sqrt (2 * Real.pi * μ) := by
    have hp : 0 < Real.pi := Real.pi_pos
    rw [show (8 : ℝ) / (Real.pi * μ) = (4 : ℝ) ^ 2 / (2 * Real.pi * μ) by field_simp; ring,
      Real.sqrt_div (by norm_num), Real.sqrt_sq (by norm_num)]
  unfold maxwellFactor
  rw [e2, e3, show (1.5 : ℝ) = 3 / 2 by norm_num]
  ring

theorem three_halves {x : ℝ} (h0 : 0 < x) (h1 : x ≤ 1) : x ^ 2 ≤ x ^ (1.5 : ℝ) ∧ x ^ (1.5 : ℝ) ≤ 1 := by
  constructor
  · have := Real.rpow_le_rpow_of_exponent_ge h0 h1 (show (1.5 : ℝ) ≤ (2 : ℕ) by norm_num)
    rwa [Real.rpow_natCast] at this
  · exact Real.rpow_le_one h0.le h1 (by norm_num)

theorem factor_bounds {μ kT : ℝ} (hμ : 1e-27 ≤ μ) (hμ' : μ ≤ 8e-27) (hk : 1e-17 ≤ kT) (hk' : kT ≤ 1) :
    4 ≤ maxwellFactor μ kT ∧ maxwellFactor μ kT ≤ 1e49 ∧ Real.sqrt (2 * Real.pi * μ) ≤ 1 ∧
    1e-14 ≤ Real.sqrt (2 * Real.pi * μ) := by
  have hμ0 : 0 < μ := lt_of_lt_of_le (by norm_num) hμ
  have hk0 : 0 < kT := lt_of_lt_of_le (by norm_num) hk
  have p1 := Real.pi_gt_three
  have p2 := Real.pi_lt_four
  have s1 : Real.sqrt (2 * Real.pi * μ) ≤ 1 := by
    rw [Real.sqrt_le_one]
    nlinarith
  have s2 : 1e-14 ≤ Real.sqrt (2 * Real.pi * μ) := by
    apply Real.le_sqrt_of_sq_le
    have : (6 : ℝ) * 1e-27 ≤ 2 * Real.pi * μ := mul_le_mul (by linarith) hμ (by norm_num) (by positivity)
    refine le_trans ?_ this
    norm_num
  obtain ⟨t1, t2⟩ := three_halves hk0 hk'
  have t3 : (1e-34 : ℝ) ≤ kT ^ (1.5 : ℝ) := by
    refine le_trans ?_ t1
    have := mul_le_mul hk hk (by norm_num) hk0.le
    rw [sq]
    refine le_trans ?_ this
    norm_num
  rw [maxwellFactor_eq hμ0 hk0]
  have q1 : 4 ≤ 4 / Real.sqrt (2 * Real.pi * μ) := by
    rw [le_div_iff₀ (by positivity)]; linarith
  have q2 : 4 / Real.sqrt (2 * Real.pi * μ) ≤ 4e14 := by
    rw [div_le_iff₀ (by positivity)]; linarith
  have tp : 0 < kT ^ (1.5 : ℝ) := by positivity
  refine ⟨?_, ?_, s1, s2⟩
  · rw [le_div_iff₀ tp]; nlinarith
  · rw [div_le_iff₀ tp]; linarith

theorem factor_close (S : Setting A F u v η) {pi : ℝ} (hpi : |pi - Real.pi| ≤ u * Real.pi) {μ μ' kT t' : ℝ}
    (hμ' : LC (4.08 * v) μ' μ) (ht' : LC (1.02 * v) t' kT) (h1 : 1e-27 ≤ μ) (h2 : μ ≤ 8e-27) (h3 : 1e-17 ≤ kT)
    (h4 : kT ≤ 1) : LC (9.2 * v) (xsFactorR A F pi μ' t') (maxwellFactor μ kT) := by
  have hv := S.v_nonneg
  have hv1 := S.v_le
  have hμ0 : 0 < μ := lt_of_lt_of_le (by norm_num) h1
  have hk0 : 0 < kT := lt_of_lt_of_le (by norm_num) h3
  have p1 := Real.pi_gt_three
  have p2 := Real.pi_lt_four
  obtain ⟨f1, f2, s1, s2⟩ := factor_bounds h1 h2 h3 h4
  obtain ⟨t1, t2⟩ := three_halves hk0 h4
  have hp : LC (1.02 * v) pi Real.pi :=
    (LC.of_rel Real.pi_pos (by linarith [S.uv]) hpi).mono (by linarith [S.uv])
  have a1 := S.round (hp.mul_left (c := 2) (by norm_num)) (by linarith) (by
    refine le_trans ?_ (show (6 : ℝ) ≤ 2 * Real.pi by linarith)
    norm_num)
  have big : (1 : ℝ) / 10 ^ 100 ≤ 2 * Real.pi * μ := by
    have : (6 : ℝ) * 1e-27 ≤ 2 * Real.pi * μ := mul_le_mul (by linarith) h1 (by norm_num) (by positivity)
    refine le_trans ?_ this
    norm_num
  have a2 := S.round (a1.mul hμ') (by linarith) big
  have a3 := a2.sqrt
  have a4 := (S.sqrt _ a2.1 (Setting.not_tiny a3 (by linarith) (le_trans (by norm_num) s2))).trans a3
  have a5 := S.round ((LC.refl (show (0 : ℝ) < 4 by norm_num)).div a4) (by linarith) (by
    have : 4 ≤ 4 / Real.sqrt (2 * Real.pi * μ) := by
      rw [le_div_iff₀ (lt_of_lt_of_le (by norm_num) s2)]; linarith
    refine le_trans ?_ this
    norm_num)
  have b1 : LC (1.53 * v) (t' ^ (1.5 : ℝ)) (kT ^ (1.5 : ℝ)) :=
    (ht'.rpow (p := 1.5) (q := 1.5) (η := 0) (Λ := |Real.log t'|) (by norm_num) (by simp) le_rfl).mono
      (by linarith)
  have b2 := (S.pow t' 1.5 ht'.1 (Setting.not_tiny b1 (by linarith) (by
    refine le_trans ?_ t1
    have := mul_le_mul h3 h3 (by norm_num) hk0.le
    rw [sq]
    refine le_trans ?_ this
    norm_num))).trans b1
  have c := S.round (a5.div b2) (by linarith) (by
    rw [← maxwellFactor_eq hμ0 hk0]
    refine le_trans ?_ f1
    norm_num)
  rw [← maxwellFactor_eq hμ0 hk0] at c
  exact c.mono (by linarith)

/-- A value known up to a relative and an absolute error, rounded. -/
theorem rd_abs_err (S : Setting A F u v η) {z y a q : ℝ} (hy : 0 ≤ y) (hq : 0 ≤ q) (ha : a * v ≤ 0.01)
    (h : |z - y| ≤ v * (a * y) + v * q) :
    |A.rd z - y| ≤ v * ((a + 1.01) * y) + v * (2 * q + 1 / 10 ^ 250) := by
  have hv := S.v_nonneg
  have hv1 := S.v_le
  have z2 := S.err z
  generalize (1 : ℝ) / 10 ^ 250 = τ at *
  have k1 : v * (a * y) ≤ 0.01 * y := by nlinarith
  have k2 : v * q ≤ q := by nlinarith
  have z1 : |z| ≤ 1.01 * y + q := by
    have := abs_le.1 h
    rw [abs_le]
    constructor <;> linarith
  have z3 : v * |z| ≤ v * (1.01 * y + q) := mul_le_mul_of_nonneg_left z1 hv
  have z5 := abs_le.1 h
  have z6 := abs_le.1 z2
  rw [abs_le]
  constructor <;> linarith

/-- One value of the integrand. -/
theorem integrandR_close (S : Setting A F u v η) {Φ Φ' σ σ' E E' kT t' : ℝ} (hΦ : LC (9.2 * v) Φ' Φ)
    (hσ : LC (2100 * v) σ' σ) (hE : LC (27.1 * v) E' E) (ht : LC (1.02 * v) t' kT) (h1 : 4 ≤ Φ) (h2 : Φ ≤ 1e49)
    (h3 : 1 / 10 ^ 80 ≤ σ) (h4 : σ ≤ 1 / 2) (h5 : 1e-16 ≤ E) (h6 : E ≤ 2e-13) (h7 : 1 / 100 ≤ E / kT)
    (h8 : E / kT ≤ 5000) :
    |integrandR A F Φ' t' σ' E' - Φ * σ * E * Real.exp (-E / kT)| ≤
      v * (154200 * (Φ * σ * E * Real.exp (-E / kT))) + v * (10 ^ 38 * (1 / 10 ^ 250)) := by
  have hv := S.v_nonneg
  have hv1 := S.v_le
  have hσ0 := hσ.2.1
  have hΦ0 := hΦ.2.1
  have hE0 := hE.2.1
  obtain ⟨τ, hτ⟩ : ∃ τ : ℝ, τ = 1 / 10 ^ 250 := ⟨_, rfl⟩
  have hτ0 : 0 < τ := by rw [hτ]; positivity
  have err : ∀ x, |A.rd x - x| ≤ v * |x| + v * τ := by intro x; rw [hτ]; exact S.err x
  have eerr : ∀ x, |F.exp x - Real.exp x| ≤ v * Real.exp x + v * τ := by intro x; rw [hτ]; exact S.exp x
  -- the coefficient
  have b1 : (1 : ℝ) / 10 ^ 100 ≤ Φ * σ := by
    refine le_trans ?_ (mul_le_mul h1 h3 (by norm_num) hΦ0.le)
    norm_num
  have b1' : (4 : ℝ) * (1 / 10 ^ 80) ≤ Φ * σ := mul_le_mul h1 h3 (by norm_num) hΦ0.le
  have b2 : (1 : ℝ) / 10 ^ 100 ≤ Φ * σ * E := by
    refine le_trans ?_ (mul_le_mul b1' h5 (by norm_num) (mul_pos hΦ0 hσ0).le)
    norm_num
  have b3 : Φ * σ * E ≤ 10 ^ 36 := by
    refine (mul_le_mul (mul_le_mul h2 h4 hσ0.le (by norm_num)) h6 hE0.le (by norm_num)).trans ?_
    norm_num
  have c1 := S.round (hΦ.mul hσ) (by linarith) b1
  have c2 := S.round (c1.mul hE) (by linarith) b2
  have c3 := c2.rel (by linarith)
  set c' := A.rd (A.rd (Φ' * σ') * E')
  set c := Φ * σ * E
  have hc0 : 0 < c := lt_of_lt_of_le (by norm_num) b2
  -- the exponent
  have r1 := hE.div ht
  have r2 := r1.rel (by linarith)
  set ρ := E / kT
  have hρ0 : 0 < ρ := by linarith
  have hx : -E' / t' = -(E' / t') := by ring
  have hx0 : 0 < E' / t' := r1.1
  have r3 := abs_le.1 r2
  have w : 1.02 * (27.1 * v + 1.02 * v) * ρ ≤ 28.7 * v * ρ := by nlinarith
  have w' : 28.7 * v * ρ ≤ ρ / 100 := by nlinarith
  have r4 : |A.rd (-E' / t') - -E' / t'| ≤ v * (E' / t') := by
    have := S.rel (x := -E' / t') (by
      rw [hx, abs_neg, abs_of_pos hx0]
      refine le_trans (show (1 : ℝ) / 10 ^ 250 ≤ 1 / 200 by norm_num) ?_
      linarith)
    rwa [show |-E' / t'| = E' / t' by rw [hx, abs_neg, abs_of_pos hx0]] at this
  have r5 : |A.rd (-E' / t') - -ρ| ≤ 149000 * v := by
    have a1 := abs_le.1 r4
    have a2 : v * (E' / t') ≤ v * (1.01 * ρ) := mul_le_mul_of_nonneg_left (by linarith) hv
    have a3 : 29.71 * v * ρ ≤ 29.71 * v * 5000 := mul_le_mul_of_nonneg_left h8 (by linarith)
    rw [hx] at a1
    rw [abs_le]
    rw [hx]
    constructor <;> linarith
  have x1 := LC.exp r5
  have x2 := x1.rel (by linarith)
  set x := A.rd (-E' / t')
  have x3 := eerr x
  have eρ : Real.exp (-E / kT) = Real.exp (-ρ) := by
    congr 1
    change -E / kT = -(E / kT)
    ring
  rw [eρ]
  have hxe : Real.exp x ≤ 1.01 * Real.exp (-ρ) := by
    have := (abs_le.1 x2).2
    have := Real.exp_pos (-ρ)
    nlinarith
  set e := Real.exp (-ρ)
  have he0 : 0 < e := Real.exp_pos _
  have he1 : e ≤ 1 := Real.exp_le_one_iff.2 (by linarith)
  have x4 : |F.exp x - e| ≤ v * (151982 * e) + v * τ := by
    have a1 := abs_le.1 x2
    have a2 := abs_le.1 x3
    have a3 : v * Real.exp x ≤ v * (1.01 * e) := mul_le_mul_of_nonneg_left hxe hv
    rw [abs_le]
    constructor <;> linarith
  -- the product
  unfold integrandR
  change |A.rd (c' * F.exp x) - c * e| ≤ v * (154200 * (c * e)) + v * (10 ^ 38 * (1 / 10 ^ 250))
  rw [← hτ]
  have c4 : |c' - c| ≤ 2182 * v * c := by
    refine c3.trans ?_
    have : 0 ≤ v * c := mul_nonneg hv hc0.le
    linarith
  have c5 : |c'| ≤ 1.0001 * c := by
    have := abs_le.1 c4
    have k : 2182 * v * c ≤ 0.0001 * c := mul_le_mul_of_nonneg_right (by linarith) hc0.le
    rw [abs_le]
    constructor <;> linarith
  have hce : 0 < c * e := mul_pos hc0 he0
  have hvce : 0 ≤ v * (c * e) := mul_nonneg hv hce.le
  have hvcτ : 0 ≤ v * (c * τ) := mul_nonneg hv (mul_nonneg hc0.le hτ0.le)
  have m1 : |c' * F.exp x - c * e| ≤ v * (154180 * (c * e)) + v * (1.0001 * (c * τ)) := by
    have e1 : c' * F.exp x - c * e = c' * (F.exp x - e) + (c' - c) * e := by ring
    have k1 : |c' * (F.exp x - e)| ≤ 1.0001 * c * (v * (151982 * e) + v * τ) := by
      rw [abs_mul]
      exact mul_le_mul c5 x4 (abs_nonneg _) (by positivity)
    have k2 : |(c' - c) * e| ≤ 2182 * v * c * e := by
      rw [abs_mul, abs_of_pos he0]
      exact mul_le_mul_of_nonneg_right c4 he0.le
    have k3 := abs_add_le (c' * (F.exp x - e)) ((c' - c) * e)
    rw [e1]
    linarith
  have z := rd_abs_err S (y := c * e) (a := 154180) (q := 1.0001 * (c * τ)) hce.le (by positivity) (by linarith) m1
  rw [← hτ] at z
  refine z.trans (add_le_add (mul_le_mul_of_nonneg_left (by linarith) hv) (mul_le_mul_of_nonneg_left ?_ hv))
  have : c * τ ≤ 10 ^ 36 * τ := mul_le_mul_of_nonneg_right b3 hτ0.le
  linarith

end
end TNS
