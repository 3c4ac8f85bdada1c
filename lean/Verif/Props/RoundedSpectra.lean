import Verif.Spec.RoundedEnergy
import Verif.Props.RoundedEnergyPdf
import Verif.Props.OpenMCSpectrum
/-
C99: the D-T and D-D spectra survive rounding.
-/

set_option autoImplicit false

namespace TNS
open Spec
noncomputable section

section
variable {A : Arith} {F : MathLib} {u v q mu mu' sigma' : ℝ}

/-- Both spectra: grid, densities and normalisation. -/
theorem spectrum_of (H : Moments A F u v q mu mu' sigma') {P ε δ : ℝ} (hP : v = P * q) {pdf' pdf : ℝ → ℝ}
    (hpdf : ∀ E E' : ℝ, |E - mu| ≤ 6 * (q * mu) → |E' - E| ≤ 50 * v * mu → LC ε (pdf' E') (pdf E))
    (hε : 2 * ε + 519 * P + 1027 * v ≤ 1 / 100) (hδ : 1.02 * (2 * ε + 519 * P + 1027 * v) ≤ δ) :
    ∃ s s' : List (ℝ × ℝ),
      prepareEnergyPdf ((linspace (mu - 6 * (q * mu)) (mu + 6 * (q * mu)) 1000).map fun e => (e, pdf e)) = .ok s ∧
      (∀ e ∈ energyGridR A mu' sigma', 0 < e) ∧
      prepareEnergyPdfR A ((energyGridR A mu' sigma').map fun e => (e, pdf' e)) = .ok s' ∧
      SameSpectrum (125 * v) δ s' s ∧ UsableSpectrum (1050 * v) s' ∧
      (∀ p ∈ s', p.1 ≤ 1.61 * mu) ∧ s'.Pairwise (fun p q => p.1 + 1000 * v * mu < q.1) := by
  have H0 := H
  obtain ⟨hA, hF, huv, hv, hmu, hq, hq1, hsm, hmean, hdev⟩ := H
  have hv0 : 0 ≤ v := H0.v0
  set σ := q * mu with hσ
  have s0 : 0 < σ := mul_pos hq hmu
  have hP0 : 0 ≤ P := by
    by_contra hn
    push Not at hn
    have := mul_neg_of_neg_of_pos hn hq
    linarith
  have hPs : P ≤ 1 / 10 ^ 6 := by
    have : P * q ≤ q / 10 ^ 6 := by rw [← hP]; refine hsm.trans ?_; nlinarith
    have : P * q ≤ 1 / 10 ^ 6 * q := by linarith
    exact le_of_mul_le_mul_right this hq
  have vmu : v * mu = P * σ := by rw [hP, hσ]; ring
  have Pσ : P * σ ≤ 1 / 10 ^ 6 * σ := mul_le_mul_of_nonneg_right hPs s0.le
  have Pσ0 : 0 ≤ P * σ := mul_nonneg hP0 s0.le
  have σmu : σ ≤ mu / 10 := by rw [hσ]; nlinarith
  have vm : v * mu ≤ 1 / 10 ^ 10 * mu := mul_le_mul_of_nonneg_right hv hmu.le
  obtain ⟨e', g1, g2, g3⟩ := grid_err hA huv hv hmu s0 σmu (by linarith)
    ((hmean.rel (by linarith)).trans (by nlinarith)) ((hdev.rel (by linarith)).trans (by nlinarith))
  set e : ℕ → ℝ := fun i : ℕ => mu - 6 * σ + i * (12 * σ / 999) with he
  replace g2 : ∀ i < 1000, |e' i - e i| ≤ 50 * v * mu := g2
  have bound : ∀ i < 1000, |e i - mu| ≤ 6 * σ := by
    intro i hi
    have i0 : (0 : ℝ) ≤ i := Nat.cast_nonneg i
    have i1 : (i : ℝ) ≤ 999 := by exact_mod_cast (by omega : i ≤ 999)
    have k0 : 0 ≤ (i : ℝ) * (12 * σ / 999) := by positivity
    have k1 := mul_le_mul_of_nonneg_right i1 (by positivity : 0 ≤ 12 * σ / 999)
    have : e i - mu = i * (12 * σ / 999) - 6 * σ := by rw [he]; ring
    rw [this, abs_le]
    constructor <;> linarith
  have hd : ∀ i < 999, LC (519 * P) (e' (i + 1) - e' i) (e (i + 1) - e i) := by
    intro i hi
    have : e (i + 1) - e i = 12 * σ / 999 := by simp only [he, Nat.cast_succ]; ring
    rw [this]
    refine (LC.of_rel (ε := 508 * P) (by positivity) (by linarith) ((g3 i hi).trans ?_)).mono (by linarith)
    have : 6.1 * v * mu = 6.1 * (P * σ) := by rw [mul_assoc, vmu]
    rw [this]
    linarith
  have hp : ∀ i < 999 + 1, LC ε (pdf' (e' i)) (pdf (e i)) := fun i hi => hpdf _ _ (bound i hi) (g2 i hi)
  obtain ⟨T', T, hT', o1, o2, o3, o4⟩ := prepareR_close hA huv hv (n := 999) (by norm_num) le_rfl hd hp
  have pos' : ∀ i < 1000, 0.39 * mu ≤ e' i ∧ e' i ≤ 1.61 * mu := by
    intro i hi
    obtain ⟨_, _⟩ := abs_le.1 (g2 i hi)
    obtain ⟨_, _⟩ := abs_le.1 (bound i hi)
    constructor <;> linarith
  have gap : ∀ i < 999, e' i + 1000 * v * mu < e' (i + 1) := by
    intro i hi
    obtain ⟨_, _⟩ := abs_le.1 (g3 i hi)
    linarith
  have gaps : ∀ i j : ℕ, i < j → j < 1000 → e' i + 1000 * v * mu < e' j := by
    intro i j hij
    induction j with
    | zero => omega
    | succ j ih =>
      intro hj
      rcases Nat.lt_succ_iff_lt_or_eq.1 hij with h | h
      · have := ih h (by omega)
        have := gap j (by omega)
        have : 0 ≤ 1000 * v * mu := by positivity
        linarith
      · rw [h]; exact gap j (by omega)
  have pw : ((List.range 1000).map fun i : ℕ => (e' i, A.rd (pdf' (e' i) / T'))).Pairwise
      (fun p q => p.1 + 1000 * v * mu < q.1) := by
    rw [List.pairwise_map]
    refine List.pairwise_lt_range.imp_of_mem ?_
    intro i j hi hj hij
    exact gaps i j hij (List.mem_range.1 hj)
  refine ⟨(List.range 1000).map fun i : ℕ => (e i, pdf (e i) / T),
    (List.range 1000).map fun i : ℕ => (e' i, A.rd (pdf' (e' i) / T')), ?_, ?_, ?_, ?_, ⟨?_, ?_, ?_, ?_⟩, ?_, pw⟩
  · rw [linspace_grid, List.map_map]
    exact o2
  · intro x hx
    rw [g1] at hx
    obtain ⟨i, hi, rfl⟩ := List.mem_map.1 hx
    have := (pos' i (List.mem_range.1 hi)).1
    linarith
  · rw [g1, List.map_map]
    exact o1
  · unfold SameSpectrum
    rw [List.forall₂_map_left_iff, List.forall₂_map_right_iff, List.forall₂_same]
    intro i hi
    have hi' : i < 1000 := List.mem_range.1 hi
    refine ⟨(g2 i hi').trans ?_, ((o3 i hi').rel hε).trans (mul_le_mul_of_nonneg_right hδ (o3 i hi').2.1.le)⟩
    obtain ⟨_, _⟩ := abs_le.1 (bound i hi')
    have := mul_le_mul_of_nonneg_left (show 0.4 * mu ≤ e i by linarith) hv0
    show 50 * v * mu ≤ 125 * v * e i
    linarith
  · refine pw.imp fun h => ?_
    have : 0 ≤ 1000 * v * mu := by positivity
    linarith
  · intro p hp
    obtain ⟨i, hi, rfl⟩ := List.mem_map.1 hp
    have := (pos' i (List.mem_range.1 hi)).1
    show 0 < e' i
    linarith
  · intro p hp
    obtain ⟨i, hi, rfl⟩ := List.mem_map.1 hp
    exact (o3 i (List.mem_range.1 hi)).1
  · have := o4.rel (by linarith)
    refine this.trans (by linarith)
  · intro p hp
    obtain ⟨i, hi, rfl⟩ := List.mem_map.1 hp
    exact (pos' i (List.mem_range.1 hi)).2


/-- The code computes the modified Gaussian of the specification. -/
theorem modified_eq (mu sigma : ℝ) (hs : 0 < sigma) (h6 : 6 * sigma < mu) :
    modifiedGaussianEnergySpectrum mu sigma = prepareEnergyPdf
      ((linspace (mu - 6 * sigma) (mu + 6 * sigma) 1000).map (fun e => (e, modifiedGaussian mu sigma e))) := by
  have hmu : 0 < mu := by linarith
  have hr : (sigma / mu) ^ 2 < 1 / 36 := by
    have a : sigma / mu < 1 / 6 := by rw [div_lt_div_iff₀ hmu (by norm_num)]; linarith
    have b : 0 < sigma / mu := by positivity
    nlinarith
  have hr0 : 0 < (sigma / mu) ^ 2 := by positivity
  have hf0 : 0 < 1.0 - 1.5 * (sigma / mu) ^ 2 := by norm_num; linarith
  have hsq : 0 < Real.sqrt (1.0 - 1.5 * (sigma / mu) ^ 2) := Real.sqrt_pos.2 hf0
  have hlt : 1.0 - 1.5 * (sigma / mu) ^ 2 < Real.sqrt (1.0 - 1.5 * (sigma / mu) ^ 2) := by
    rw [Real.lt_sqrt hf0.le]
    have hf1 : 1.0 - 1.5 * (sigma / mu) ^ 2 < 1 := by norm_num; positivity
    nlinarith
  have hss : 0 < 4.0 / 3.0 * mu ^ 2 * (Real.sqrt (1.0 - 1.5 * (sigma / mu) ^ 2) -
      (1.0 - 1.5 * (sigma / mu) ^ 2)) :=
    mul_pos (by positivity) (by linarith)
  unfold modifiedGaussianEnergySpectrum
  simp only
  rw [if_neg hmu.ne', if_neg]
  · refine congrArg prepareEnergyPdf (List.map_congr_left ?_)
    intro x _
    unfold modifiedGaussian
    simp only
    have e1 : (1.0 : ℝ) - 1.5 * (sigma / mu) ^ 2 = 1 - 3 / 2 * (sigma ^ 2 / mu ^ 2) := by
      rw [div_pow]; norm_num
    rw [e1]
    norm_num
    ring
  · push Not
    refine ⟨hf0.le, by positivity, ?_, hss.ne'⟩
    intro x hx
    have := (linspace_mem _ _ _ (by linarith) (by norm_num) x hx).1
    linarith

/-- The moments of a D-T or D-D spectrum, and bounds for the width. -/
theorem moments_of (hA : StandardModel A u) (hF : AccurateLib F v) (huv : u ≤ v) (hv : v ≤ 1 / 10 ^ 11)
    {t : ℝ} (h1 : 1 / 10 ≤ t) (h2 : t ≤ 40) {r : Neutronic} {b : Ballabio} (hb : (Reaction.n r).ballabio = some b) :
    ¬ (t < 0 ∨ (b.lit A).shift.denR A F t = 0 ∨ (b.lit A).width.denR A F t = 0) ∧
    ∃ q : ℝ, q * b.meanEnergy t = b.stdDeviation t ∧
      Moments A F u v q (b.meanEnergy t) ((b.lit A).meanEnergyR A F t) ((b.lit A).stdDeviationR A F t) ∧
      0.0053 * Real.sqrt t ≤ q := by
  obtain ⟨d1, d2, l1, l2, ⟨m1, m2, m3⟩⟩ := moments_err hA hF huv (by linarith) h1 h2 hb
  refine ⟨?_, ?_⟩
  · rintro (h | h | h)
    · linarith
    · exact d1.ne' h
    · exact d2.ne' h
  · set mu := b.meanEnergy t
    set sigma := b.stdDeviation t
    have hmu : 0 < mu := by linarith
    have e : sigma / mu * mu = sigma := div_mul_cancel₀ _ hmu.ne'
    have lo : 0.0053 * Real.sqrt t ≤ sigma / mu := by rw [le_div_iff₀ hmu]; exact m2
    have st : 0 < Real.sqrt t := Real.sqrt_pos.2 (by linarith)
    have q0 : 0 < sigma / mu := lt_of_lt_of_le (by positivity) lo
    refine ⟨sigma / mu, e, ⟨hA, hF, huv, by linarith, hmu, q0, ?_, ?_, l1, by rw [e]; exact l2⟩, lo⟩
    · rw [div_le_iff₀ hmu]; linarith
    · have k1 := pow_le_pow_left₀ (by positivity) lo 2
      rw [mul_pow, Real.sq_sqrt (by linarith)] at k1
      have : (0.0053 : ℝ) ^ 2 * (1 / 10) ≤ 0.0053 ^ 2 * t := mul_le_mul_of_nonneg_left h1 (by norm_num)
      norm_num at this k1 ⊢
      norm_num at hv
      linarith

/-- Everything about the computed Gaussian. -/
theorem gaussian_core (hA : StandardModel A u) (hF : AccurateLib F v) (huv : u ≤ v) (hv : v ≤ 1 / 10 ^ 11) {pi : ℝ}
    (hpi : |pi - Real.pi| ≤ u * Real.pi) {t : ℝ} (h1 : 1 / 10 ≤ t) (h2 : t ≤ 40) {r : Neutronic} {b : Ballabio}
    (hb : (Reaction.n r).ballabio = some b) :
    ∃ s s' : List (ℝ × ℝ), energySpectrum t (.n r) .BALLABIO_GAUSSIAN = .ok (some s, []) ∧
      ballabioSpectrumR A F pi (b.lit A) t .BALLABIO_GAUSSIAN = .ok s' ∧
      SameSpectrum (125 * v) (280000 * v / Real.sqrt t) s' s ∧ UsableSpectrum (1050 * v) s' := by
  obtain ⟨g, q, hq, H, lo⟩ := moments_of hA hF huv hv h1 h2 hb
  have g0 := ballabio_guard r b hb t (by linarith) h2
  set mu := b.meanEnergy t with hmu
  set sigma := b.stdDeviation t with hsig
  set mu' := (b.lit A).meanEnergyR A F t
  set sigma' := (b.lit A).stdDeviationR A F t
  have q0 := H.q_pos
  have v0 := H.v0
  have hP : v = v / q * q := (div_mul_cancel₀ v q0.ne').symm
  have hP0 : 0 ≤ v / q := div_nonneg v0 q0.le
  have vP : v ≤ 0.1 * (v / q) := by
    have := mul_le_mul_of_nonneg_left H.q_le hP0
    rw [← hP] at this
    linarith
  have hPs : v / q ≤ 1 / 10 ^ 6 := by
    rw [div_le_iff₀ q0]
    have := H.small
    have := H.q_le
    nlinarith
  have st : 0 < Real.sqrt t := Real.sqrt_pos.2 (by linarith)
  have Pt : v / q ≤ 189 * v / Real.sqrt t := by
    rw [div_le_div_iff₀ q0 st]
    have := mul_le_mul_of_nonneg_left lo v0
    have : 0 ≤ v * Real.sqrt t := by positivity
    nlinarith
  obtain ⟨s, s', o1, -, o2, o3, o4, -, -⟩ := spectrum_of (δ := 280000 * v / Real.sqrt t) H hP
    (fun E E' => gaussianPdf_close H hP hpi) (by linarith) (by
      have : 280000 * v / Real.sqrt t = 280000 / 189 * (189 * v / Real.sqrt t) := by ring
      rw [this]
      linarith)
  rw [hq] at o1
  refine ⟨s, s', ?_, ?_, o3, o4⟩
  · have sp : 0 < sigma := by rw [← hq]; exact mul_pos q0 H.mu_pos
    have : ballabioSpectrum b t .BALLABIO_GAUSSIAN = .ok s := by
      unfold ballabioSpectrum
      rw [if_neg g0]
      show gaussianEnergySpectrum mu sigma = _
      unfold gaussianEnergySpectrum
      rw [if_neg sp.ne']
      exact o1
    simp only [energySpectrum, hb, this, Bind.bind, Except.bind]
  · unfold ballabioSpectrumR
    rw [if_neg g]
    show gaussianEnergySpectrumR A F pi mu' sigma' = _
    unfold gaussianEnergySpectrumR
    rw [if_neg H.dev.1.ne']
    exact o2

/-- Everything about the computed modified Gaussian. -/
theorem modified_core (hA : StandardModel A u) (hF : AccurateLib F v) (huv : u ≤ v) (hv : v ≤ 1 / 10 ^ 11) (pi : ℝ)
    {t : ℝ} (h1 : 1 / 10 ≤ t) (h2 : t ≤ 40) {r : Neutronic} {b : Ballabio}
    (hb : (Reaction.n r).ballabio = some b) :
    ∃ s s' : List (ℝ × ℝ), energySpectrum t (.n r) .BALLABIO_M_GAUSSIAN = .ok (some s, []) ∧
      ballabioSpectrumR A F pi (b.lit A) t .BALLABIO_M_GAUSSIAN = .ok s' ∧
      SameSpectrum (125 * v) (2.5e7 * v / t) s' s ∧ UsableSpectrum (1050 * v) s' ∧
      (∀ p ∈ s', p.1 ≤ 1.61 * b.meanEnergy t) ∧ s'.Pairwise (fun p q => p.1 + 1000 * v * b.meanEnergy t < q.1) := by
  obtain ⟨g, q, hq, H, lo⟩ := moments_of hA hF huv hv h1 h2 hb
  have g0 := ballabio_guard r b hb t (by linarith) h2
  set mu := b.meanEnergy t with hmu
  set sigma := b.stdDeviation t with hsig
  set mu' := (b.lit A).meanEnergyR A F t
  set sigma' := (b.lit A).stdDeviationR A F t
  have q0 := H.q_pos
  have v0 := H.v0
  have q2 : 0 < q ^ 2 := by positivity
  have hP : v = v / q * q := (div_mul_cancel₀ v q0.ne').symm
  have hR : v = v / q ^ 2 * q ^ 2 := (div_mul_cancel₀ v q2.ne').symm
  have hR0 : 0 ≤ v / q ^ 2 := div_nonneg v0 q2.le
  have PR : v / q ≤ 0.1 * (v / q ^ 2) := by
    have := mul_le_mul_of_nonneg_left H.q_le hR0
    have e : v / q ^ 2 * q = v / q := by field_simp
    rw [e] at this
    linarith
  have vP : v ≤ 0.1 * (v / q) := by
    have := mul_le_mul_of_nonneg_left H.q_le (div_nonneg v0 q0.le)
    rw [← hP] at this
    linarith
  have hRs : v / q ^ 2 ≤ 1 / 10 ^ 5 := by
    rw [div_le_iff₀ q2]
    have := H.small
    linarith
  have ht : 0 < t := by linarith
  have Rt : v / q ^ 2 ≤ 35600 * v / t := by
    rw [div_le_div_iff₀ q2 ht]
    have k1 := pow_le_pow_left₀ (by positivity) lo 2
    rw [mul_pow, Real.sq_sqrt ht.le] at k1
    have k2 := mul_le_mul_of_nonneg_left k1 v0
    have : 0 ≤ v * t := by positivity
    norm_num at k2
    nlinarith
  obtain ⟨s, s', o1, pg, o2, o3, o4, o5, o6⟩ := spectrum_of (δ := 2.5e7 * v / t) H hP
    (fun E E' => mgPdf_close H hR) (by linarith) (by
      have : 2.5e7 * v / t = 2.5e7 / 35600 * (35600 * v / t) := by ring
      rw [this]
      have k : 696 * (35600 * v / t) ≤ 2.5e7 / 35600 * (35600 * v / t) :=
        mul_le_mul_of_nonneg_right (by norm_num) (by positivity)
      linarith)
  rw [hq] at o1
  refine ⟨s, s', ?_, ?_, o3, o4, o5, o6⟩
  · have sp : 0 < sigma := by rw [← hq]; exact mul_pos q0 H.mu_pos
    have s6 : 6 * sigma < mu := by
      rw [← hq]
      have := mul_le_mul_of_nonneg_right H.q_le H.mu_pos.le
      have := H.mu_pos
      linarith
    have : ballabioSpectrum b t .BALLABIO_M_GAUSSIAN = .ok s := by
      unfold ballabioSpectrum
      rw [if_neg g0]
      show modifiedGaussianEnergySpectrum mu sigma = _
      rw [modified_eq _ _ sp s6, ← o1]
    simp only [energySpectrum, hb, this, Bind.bind, Except.bind]
  · unfold ballabioSpectrumR
    rw [if_neg g]
    show modifiedGaussianEnergySpectrumR A F mu' sigma' = _
    unfold modifiedGaussianEnergySpectrumR
    obtain ⟨-, f2, -⟩ := mgFactor_close H
    obtain ⟨c1, c2⟩ := mgConst_close H hR
    rw [if_neg H.mean.1.ne', if_neg]
    · exact o2
    · rintro (h | h | ⟨e, he, h⟩ | h)
      · exact absurd h (not_lt.2 f2.1.le)
      · exact absurd h (not_lt.2 c1.1.le)
      · exact absurd h (not_lt.2 (pg e he).le)
      · exact c2.1.ne' h

end
end
end TNS
