import Verif.Props.SensitivityExport
/-
C104: how the reactivities react to the temperature.
-/

set_option autoImplicit false

namespace TNS
open Spec
noncomputable section

/-- C104.  The published fits: condition number 240. -/
theorem C104_published {r : Reaction} (hr : hasBoschHale r = true) {δ : ℝ} (h0 : 0 ≤ δ) (h1 : δ ≤ 1 / 10 ^ 5) :
    Conditioned publishedReactivity 240 δ r := by
  intro t t' a b _ d h
  exact C100_conditioned hr h0 h1 h a b d

theorem sigma_positive {U : SI} {m : Masses ℝ} (hm : RoughData U m) (r : Reaction) {g : ℝ} (hg : 1 ≤ g) (hg' : g ≤ 1000) :
    0 < npInterp (r.crossSection U m).table g := by
  have hA : StandardModel exactArith 0 :=
    ⟨le_refl _, by norm_num, by simp [exactArith], exact_addsUp, exact_addsUp⟩
  have S : Setting exactArith exactLib 0 0 0 :=
    ⟨gradual_of_standard hA, gradual_of_accurate accurate_libs.1, le_rfl, by norm_num, by norm_num⟩
  have := (sigma_close S hm r (x := g) (g := g) ((LC.refl (by linarith)).mono (by norm_num)) hg hg').2.2.1
  exact lt_of_lt_of_le (by positivity) this

theorem LC.rpow_neg {ε a b : ℝ} (h : LC ε a b) : LC (1.5 * ε) (a ^ (-(3 : ℝ) / 2)) (b ^ (-(3 : ℝ) / 2)) := by
  refine ⟨Real.rpow_pos_of_pos h.1 _, Real.rpow_pos_of_pos h.2.1 _, ?_⟩
  rw [Real.log_rpow h.1, Real.log_rpow h.2.1, ← mul_sub, abs_mul, show |(-(3 : ℝ) / 2)| = 1.5 by
    rw [abs_of_neg (by norm_num)]; norm_num]
  exact mul_le_mul_of_nonneg_left h.2.2 (by norm_num)

/-- C104.  The Maxwell averages of the cross sections, for all five reactions: condition number 5300. -/
theorem C104_averaged {U : SI} {m : Masses ℝ} (hm : RoughData U m) (r : Reaction) {δ : ℝ} (h0 : 0 ≤ δ)
    (h1 : δ ≤ 1 / 10 ^ 6) : Conditioned (averagedReactivity U m) 5300 δ r := by
  intro t t' ta tb _ _ h
  obtain ⟨k1, k2⟩ := hm.keV
  have hk0 : (0 : ℝ) < U.keV := lt_of_lt_of_le (by norm_num) k1
  have t0 : 0 < t := lt_of_lt_of_le (by norm_num) ta
  have lt : LC (1.02 * δ) t' t := LC.of_rel t0 (by linarith) h
  have t0' := lt.1
  have hσ : ∀ i : ℕ, i ≤ 999 → 0 < npInterp (r.crossSection U m).table (logEnergy i) := fun i hi =>
    sigma_positive hm r (logEnergy_mem i hi).1 (logEnergy_mem i hi).2
  have hA : StandardModel exactArith 0 :=
    ⟨le_refl _, by norm_num, by simp [exactArith], exact_addsUp, exact_addsUp⟩
  have S : Setting exactArith exactLib 0 0 0 :=
    ⟨gradual_of_standard hA, gradual_of_accurate accurate_libs.1, le_rfl, by norm_num, by norm_num⟩
  obtain ⟨-, μ1, -⟩ := reducedMass_close S hm r
  have hE : ∀ i : ℕ, i ≤ 999 → LC (5051 * δ) (Real.exp (-(logEnergy i * U.keV) / (t' * U.keV)))
      (Real.exp (-(logEnergy i * U.keV) / (t * U.keV))) := by
    intro i hi
    obtain ⟨g1, g2⟩ := logEnergy_mem i hi
    refine LC.exp ?_
    have e : -(logEnergy i * U.keV) / (t' * U.keV) - -(logEnergy i * U.keV) / (t * U.keV) =
        logEnergy i * ((t' - t) / (t' * t)) := by
      field_simp
      ring
    rw [e, abs_mul, abs_of_pos (by linarith), abs_div, abs_of_pos (mul_pos t0' t0)]
    have hlow : 0.99 * t ≤ t' := by
      have := (abs_le.1 h).1
      nlinarith
    have h3 : |t' - t| / (t' * t) ≤ 5.051 * δ := by
      rw [div_le_iff₀ (mul_pos t0' t0)]
      refine h.trans ?_
      have : 1 ≤ 5.051 * t' := by
        have := (abs_le.1 h).1
        norm_num at ta
        nlinarith
      have h4 := mul_le_mul_of_nonneg_left this (mul_nonneg h0 t0.le)
      linarith
    calc logEnergy i * (|t' - t| / (t' * t)) ≤ 1000 * (5.051 * δ) := mul_le_mul g2 h3 (by positivity) (by norm_num)
      _ = _ := by ring
  have hkT : LC (1.02 * δ) (t' * U.keV) (t * U.keV) := by
    have := lt.mul (LC.refl hk0)
    rwa [add_zero] at this
  have hkT2 := hkT.rpow_neg
  generalize hμ : (r.crossSection U m).reducedMass = μ at *
  have hpre : 0 < Real.sqrt (8 / (Real.pi * μ)) := by
    have : 0 < μ := lt_of_lt_of_le (by norm_num) μ1
    have := Real.pi_pos
    positivity
  have hg : ∀ i : ℕ, i ≤ 999 → LC (5051 * δ)
      (npInterp (r.crossSection U m).table (logEnergy i) * (logEnergy i * U.keV) *
        Real.exp (-(logEnergy i * U.keV) / (t' * U.keV)))
      (npInterp (r.crossSection U m).table (logEnergy i) * (logEnergy i * U.keV) *
        Real.exp (-(logEnergy i * U.keV) / (t * U.keV))) := by
    intro i hi
    obtain ⟨g1, g2⟩ := logEnergy_mem i hi
    exact (hE i hi).mul_left (mul_pos (hσ i hi) (mul_pos (by linarith) hk0))
  have hterm : ∀ i < 999, LC (5051 * δ)
      ((logEnergy (i + 1) * U.keV - logEnergy i * U.keV) *
        ((npInterp (r.crossSection U m).table (logEnergy i) * (logEnergy i * U.keV) *
            Real.exp (-(logEnergy i * U.keV) / (t' * U.keV)) +
          npInterp (r.crossSection U m).table (logEnergy (i + 1)) * (logEnergy (i + 1) * U.keV) *
            Real.exp (-(logEnergy (i + 1) * U.keV) / (t' * U.keV))) / 2))
      ((logEnergy (i + 1) * U.keV - logEnergy i * U.keV) *
        ((npInterp (r.crossSection U m).table (logEnergy i) * (logEnergy i * U.keV) *
            Real.exp (-(logEnergy i * U.keV) / (t * U.keV)) +
          npInterp (r.crossSection U m).table (logEnergy (i + 1)) * (logEnergy (i + 1) * U.keV) *
            Real.exp (-(logEnergy (i + 1) * U.keV) / (t * U.keV))) / 2)) := by
    intro i hi
    have a := (hg i (by omega)).add (hg (i + 1) (by omega))
    have b : LC (5051 * δ) _ _ := (a.div (LC.refl (show (0 : ℝ) < 2 by norm_num))).mono (by linarith)
    refine b.mul_left ?_
    have s := logEnergy_spacing i
    have g1 := (logEnergy_mem i (by omega)).1
    have g2 := (logEnergy_mem (i + 1) (by omega)).1
    have : 0 < logEnergy (i + 1) - logEnergy i := by linarith
    nlinarith
  have hsum := LC.range_sum (by norm_num : 0 < 999) hterm
  have hall := ((hkT2.mul_left hpre).mul hsum).mono (show _ ≤ 5053 * δ by linarith)
  unfold averagedReactivity maxwellAverage
  rw [hμ]
  refine (hall.rel (by linarith)).trans (mul_le_mul_of_nonneg_right (by linarith) hall.2.1.le)

/-- C104.  The reactivities the constructor uses, whatever the method and the reaction. -/
theorem C104_reference {U : SI} {m : Masses ℝ} (hm : RoughData U m) (method : ReactivityMethod) (r : Reaction) {δ : ℝ}
    (h0 : 0 ≤ δ) (h1 : δ ≤ 1 / 10 ^ 6) : Conditioned (referenceReactivity U m method) 5300 δ r := by
  intro t t' a b c d h
  unfold referenceReactivity
  split_ifs with hc
  · refine (C104_published hc.2 h0 (h1.trans (by norm_num)) t t' a b c d h).trans
      (mul_le_mul_of_nonneg_right (by linarith) ?_)
    have : 0 < t := lt_of_lt_of_le (by norm_num) a
    exact (published_pos hc.2 t this b).le
  · exact C104_averaged hm r h0 h1 t t' a b c d h

end
end TNS
