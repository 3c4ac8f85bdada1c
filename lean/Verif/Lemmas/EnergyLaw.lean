import Verif.Spec.EnergyLaw
import Verif.Lemmas.Interpolate
import Mathlib.MeasureTheory.Integral.DominatedConvergence
import Mathlib.MeasureTheory.Integral.IntervalIntegral.Basic
import Mathlib.Analysis.SpecialFunctions.Gaussian.GaussianIntegral
/-
Means over tabulated and normal energies depend continuously on the table and on the mean and standard deviation.
-/

set_option autoImplicit false
set_option linter.unusedSectionVars false

namespace TNS
open Spec MeasureTheory Topology
noncomputable section

section table
variable {Q ι : Type} [TopologicalSpace Q] [FirstCountableTopology Q]

theorem segment_unit (φ : ℝ → ℝ) (a b u v : ℝ) :
    ∫ x in a..b, φ x * (u + (v - u) * ((x - a) / (b - a))) =
      (b - a) * ∫ s in (0 : ℝ)..1, φ ((b - a) * s + a) * (u + (v - u) * s) := by
  have h := intervalIntegral.smul_integral_comp_mul_add (a := 0) (b := 1)
    (fun x => φ x * (u + (v - u) * ((x - a) / (b - a)))) (b - a) a
  rw [show (b - a) * 0 + a = a by ring, show (b - a) * 1 + a = b by ring, smul_eq_mul] at h
  rw [← h]
  rcases eq_or_ne (b - a) 0 with h0 | h0
  · simp [h0]
  · refine congrArg ((b - a) * ·) (intervalIntegral.integral_congr fun s _ => ?_)
    rw [show ((b - a) * s + a - a) / (b - a) = s by field_simp; ring]

theorem segment_continuousOn {S : Set Q} (f : Q → ℝ → ℝ) (hf : Continuous fun y : Q × ℝ => f y.1 y.2)
    {a b u v : Q → ℝ} (ha : ContinuousOn a S) (hb : ContinuousOn b S) (hu : ContinuousOn u S) (hv : ContinuousOn v S) :
    ContinuousOn (fun q => ∫ x in a q..b q, f q x * (u q + (v q - u q) * ((x - a q) / (b q - a q)))) S := by
  simp only [segment_unit]
  refine (hb.sub ha).mul ?_
  have hc : Continuous fun y : Q × ℝ × ℝ × ℝ × ℝ => ∫ s in (0 : ℝ)..1,
      f y.1 ((y.2.2.1 - y.2.1) * s + y.2.1) * (y.2.2.2.1 + (y.2.2.2.2 - y.2.2.2.1) * s) := by
    refine intervalIntegral.continuous_parametric_intervalIntegral_of_continuous' ?_ 0 1
    have : Continuous fun z : (Q × ℝ × ℝ × ℝ × ℝ) × ℝ => f z.1.1 ((z.1.2.2.1 - z.1.2.1) * z.2 + z.1.2.1) :=
      hf.comp (f := fun z : (Q × ℝ × ℝ × ℝ × ℝ) × ℝ => (z.1.1, (z.1.2.2.1 - z.1.2.1) * z.2 + z.1.2.1)) (by fun_prop)
    exact this.mul (by fun_prop)
  exact hc.comp_continuousOn (f := fun q => (q, a q, b q, u q, v q))
    (continuousOn_id.prodMk (ha.prodMk (hb.prodMk (hu.prodMk hv))))

theorem moment_continuousOn {S : Set Q} (f : Q → ℝ → ℝ) (hf : Continuous fun y : Q × ℝ => f y.1 y.2)
    (x p : ι → Q → ℝ) (I : List ι) (hx : ∀ i ∈ I, ContinuousOn (x i) S) (hp : ∀ i ∈ I, ContinuousOn (p i) S) :
    ContinuousOn (fun q => moment (f q) (I.map fun i => (x i q, p i q))) S := by
  induction I with
  | nil => simpa [moment] using continuousOn_const
  | cons i I ih =>
    cases I with
    | nil => simpa [moment] using continuousOn_const
    | cons j I =>
      have ih := ih (fun k hk => hx k (by simp [hk])) (fun k hk => hp k (by simp [hk]))
      simp only [moment, List.map_cons, List.tail_cons, List.zipWith_cons_cons, List.sum_cons] at ih ⊢
      exact (segment_continuousOn f hf (hx i (by simp)) (hx j (by simp)) (hp i (by simp)) (hp j (by simp))).add ih

theorem area_continuousOn {S : Set Q} (x p : ι → Q → ℝ) (I : List ι) (hx : ∀ i ∈ I, ContinuousOn (x i) S)
    (hp : ∀ i ∈ I, ContinuousOn (p i) S) :
    ContinuousOn (fun q => area (I.map fun i => (x i q, p i q))) S := by
  induction I with
  | nil => simpa [area] using continuousOn_const
  | cons i I ih =>
    cases I with
    | nil => simpa [area] using continuousOn_const
    | cons j I =>
      have ih := ih (fun k hk => hx k (by simp [hk])) (fun k hk => hp k (by simp [hk]))
      simp only [area, List.map_cons, List.tail_cons, List.zipWith_cons_cons, List.sum_cons] at ih ⊢
      exact ((((hp i (by simp)).add (hp j (by simp))).div_const 2).mul
        ((hx j (by simp)).sub (hx i (by simp)))).add ih

theorem moment_weight (c : ℝ) (φ : ℝ → ℝ) (l : List (ℝ × ℝ)) :
    moment φ (l.map fun p => (p.1, c * p.2)) = c * moment φ l := by
  induction l with
  | nil => simp [moment]
  | cons p l ih =>
    cases l with
    | nil => simp [moment]
    | cons q l =>
      simp only [moment, List.map_cons, List.tail_cons, List.zipWith_cons_cons, List.sum_cons] at ih ⊢
      rw [ih, mul_add, ← intervalIntegral.integral_const_mul]
      refine congrArg (· + _) (intervalIntegral.integral_congr fun x _ => ?_)
      ring

theorem area_weight (c : ℝ) (l : List (ℝ × ℝ)) : area (l.map fun p => (p.1, c * p.2)) = c * area l := by
  induction l with
  | nil => simp [area]
  | cons p l ih =>
    cases l with
    | nil => simp [area]
    | cons q l =>
      simp only [area, List.map_cons, List.tail_cons, List.zipWith_cons_cons, List.sum_cons] at ih ⊢
      rw [ih]
      ring

/-- The scale of the densities of a table does not matter. -/
theorem energyMean_weight {c : ℝ} (hc : c ≠ 0) (f : ℝ → ℝ) (l : List (ℝ × ℝ)) :
    energyMean f (.tabular (l.map fun p => (p.1, c * p.2))) = energyMean f (.tabular l) := by
  simp only [energyMean]
  rw [moment_weight, area_weight, mul_div_mul_left _ _ hc]

theorem tabular_continuousOn {S : Set Q} (f : Q → ℝ → ℝ) (hf : Continuous fun y : Q × ℝ => f y.1 y.2)
    (x p : ι → Q → ℝ) (I : List ι) (hx : ∀ i ∈ I, ContinuousOn (x i) S) (hp : ∀ i ∈ I, ContinuousOn (p i) S)
    (h0 : ∀ q ∈ S, area (I.map fun i => (x i q, p i q)) ≠ 0) :
    ContinuousOn (fun q => energyMean (f q) (.tabular (I.map fun i => (x i q, p i q)))) S :=
  (moment_continuousOn f hf x p I hx hp).div (area_continuousOn x p I hx hp) h0

end table

/-! ### The normal distribution -/

theorem normal_standard (f : ℝ → ℝ) (mean std : ℝ) (h : 0 < std) :
    energyMean f (.normal mean std) =
      ∫ z, f (mean + std * z) * (1 / Real.sqrt (2 * Real.pi) * Real.exp (-(z ^ 2 / 2))) := by
  simp only [energyMean]
  set g : ℝ → ℝ := fun E => f E * (1 / (std * Real.sqrt (2 * Real.pi)) * Real.exp (-((E - mean) ^ 2 / (2 * std ^ 2)))) with hg
  have h1 : ∫ E, g E = ∫ E, g (mean + E) := (integral_add_left_eq_self g mean).symm
  have h2 := Measure.integral_comp_mul_left (fun E => g (mean + E)) std
  rw [abs_inv, abs_of_pos h, smul_eq_mul] at h2
  rw [h1, show (∫ E, g (mean + E)) = std * (std⁻¹ * ∫ E, g (mean + E)) by field_simp, ← h2, ← integral_const_mul]
  refine integral_congr_ae (Filter.Eventually.of_forall fun z => ?_)
  simp only [hg]
  rw [show (mean + std * z - mean) ^ 2 / (2 * std ^ 2) = z ^ 2 / 2 by field_simp; ring]
  field_simp

theorem gauss_weight_integrable :
    Integrable fun z : ℝ => (1 + z ^ 2) * (1 / Real.sqrt (2 * Real.pi) * Real.exp (-(z ^ 2 / 2))) := by
  have h0 := integrable_exp_neg_mul_sq (b := 1 / 2) (by norm_num)
  have h2 := integrable_rpow_mul_exp_neg_mul_sq (b := 1 / 2) (by norm_num) (s := 2) (by norm_num)
  refine ((h0.add h2).const_mul (1 / Real.sqrt (2 * Real.pi))).congr (Filter.Eventually.of_forall fun z => ?_)
  simp only [Pi.add_apply, Real.rpow_ofNat]
  rw [show -(1 / 2 : ℝ) * z ^ 2 = -(z ^ 2 / 2) by ring]
  ring

theorem normal_continuousOn {Q : Type} [TopologicalSpace Q] [FirstCountableTopology Q] {S : Set Q} (f : Q → ℝ → ℝ)
    (hf : Continuous fun y : Q × ℝ => f y.1 y.2) (C : ℝ) (hC : ∀ q E, |f q E| ≤ C * (1 + E ^ 2)) {mean std : Q → ℝ}
    (hm : ContinuousOn mean S) (hs : ContinuousOn std S) (hpos : ∀ q ∈ S, 0 < std q) :
    ContinuousOn (fun q => energyMean (f q) (.normal (mean q) (std q))) S := by
  have hC0 : 0 ≤ C ∨ IsEmpty Q := by
    rcases isEmpty_or_nonempty Q with h | ⟨⟨q⟩⟩
    · exact Or.inr h
    · have := (abs_nonneg _).trans (hC q 0)
      exact Or.inl (by linarith)
  rcases hC0 with hC0 | hE
  swap
  · intro q; exact hE.elim q
  have e : Set.EqOn (fun q => energyMean (f q) (.normal (mean q) (std q))) (fun q =>
      ∫ z, f q (mean q + std q * z) * (1 / Real.sqrt (2 * Real.pi) * Real.exp (-(z ^ 2 / 2)))) S :=
    fun q hq => normal_standard _ _ _ (hpos q hq)
  refine ContinuousOn.congr ?_ e
  intro q0 hq0
  set M := |mean q0| + 1 with hM
  set K := |std q0| + 1 with hK
  have hmb : ∀ᶠ q in 𝓝[S] q0, |mean q| < M :=
    (hm q0 hq0).abs.eventually_lt_const (by rw [hM]; linarith)
  have hsb : ∀ᶠ q in 𝓝[S] q0, |std q| < K :=
    (hs q0 hq0).abs.eventually_lt_const (by rw [hK]; linarith)
  have cont1 : ∀ q, Continuous fun z : ℝ => f q (mean q + std q * z) := fun q =>
    hf.comp (f := fun z : ℝ => (q, mean q + std q * z)) (by fun_prop)
  refine continuousWithinAt_of_dominated
    (bound := fun z => C * (1 + 2 * M ^ 2 + 2 * K ^ 2) * ((1 + z ^ 2) * (1 / Real.sqrt (2 * Real.pi) * Real.exp (-(z ^ 2 / 2)))))
    ?_ ?_ (gauss_weight_integrable.const_mul _) ?_
  · exact Filter.Eventually.of_forall fun q => ((cont1 q).mul (by fun_prop)).aestronglyMeasurable
  · filter_upwards [hmb, hsb] with q h1 h2
    refine Filter.Eventually.of_forall fun z => ?_
    have key : |f q (mean q + std q * z)| ≤ C * ((1 + 2 * M ^ 2 + 2 * K ^ 2) * (1 + z ^ 2)) := by
      refine (hC q _).trans (mul_le_mul_of_nonneg_left ?_ hC0)
      have a1 : mean q ^ 2 ≤ M ^ 2 := by rw [← sq_abs]; gcongr
      have a2 : std q ^ 2 ≤ K ^ 2 := by rw [← sq_abs]; gcongr
      have a3 : (mean q + std q * z) ^ 2 ≤ 2 * mean q ^ 2 + 2 * (std q ^ 2 * z ^ 2) := by
        nlinarith [sq_nonneg (mean q - std q * z)]
      have a4 : std q ^ 2 * z ^ 2 ≤ K ^ 2 * z ^ 2 := mul_le_mul_of_nonneg_right a2 (sq_nonneg z)
      have a5 : 0 ≤ M ^ 2 * z ^ 2 := by positivity
      nlinarith [sq_nonneg z, sq_nonneg K]
    have w : 0 ≤ 1 / Real.sqrt (2 * Real.pi) * Real.exp (-(z ^ 2 / 2)) := by positivity
    rw [Real.norm_eq_abs, abs_mul, abs_of_nonneg w]
    exact (mul_le_mul_of_nonneg_right key w).trans_eq (by ring)
  · refine Filter.Eventually.of_forall fun z => ?_
    refine ContinuousWithinAt.mul ?_ continuousWithinAt_const
    exact (hf.continuousAt.comp_continuousWithinAt (f := fun q => (q, mean q + std q * z))
      (continuousWithinAt_id.prodMk ((hm q0 hq0).add ((hs q0 hq0).mul continuousWithinAt_const))))

end
end TNS
