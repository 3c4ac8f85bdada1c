import Verif.Props.RoundedSpectra
import Verif.Props.RoundedXsSource
/-
C99: the D-T and D-D neutron spectra in floating point.
-/

set_option autoImplicit false

namespace TNS
open Spec
noncomputable section

section
variable {A : Arith} {F : MathLib} {u v : ℝ}

/-- C99.  Mean and standard deviation of the normal distributions handed to OpenMC. -/
theorem C99_normal (hA : StandardModel A u) (hF : AccurateLib F v) (huv : u ≤ v) (hv : v ≤ 1 / 10 ^ 11) (pi : ℝ)
    {t : ℝ} (h1 : 1 / 10 ≤ t) (h2 : t ≤ 40) {r : Neutronic} {b : Ballabio} (hb : (Reaction.n r).ballabio = some b) :
    ∃ mean' std' : ℝ, ballabioDistR A F pi (b.lit A) t .BALLABIO_GAUSSIAN = .ok (.normal mean' std') ∧
      neutronEnergySpectrum .BALLABIO_GAUSSIAN (.n r) t = .ok (.normal (1000 * specMean r t) (1000 * specSigma r t)) ∧
      0 < std' ∧
      |mean' - 1000 * specMean r t| ≤ 6 * v * (1000 * specMean r t) ∧
      |std' - 1000 * specSigma r t| ≤ 13 * v * (1000 * specSigma r t) := by
  have h0 := hA.u_nonneg
  have hv0 : 0 ≤ v := h0.trans huv
  have hu : u ≤ 1 / 100 := by linarith
  have hw : 1.02 * u ≤ 1.02 * v := by linarith
  obtain ⟨e1, e2, e3⟩ := ballabio_moments r b hb t (by linarith) h2
  obtain ⟨g, q, hq, H, lo⟩ := moments_of hA hF huv hv h1 h2 hb
  have g0 := ballabio_guard r b hb t (by linarith) h2
  have l1 := H.mean
  have l2 := H.dev
  rw [hq] at l2
  have k1 := LC.round hA hu hw (l1.mul (LC.refl (by norm_num : (0 : ℝ) < 1000)))
  have k2 := LC.round hA hu hw (l2.mul (LC.refl (by norm_num : (0 : ℝ) < 1000)))
  rw [e1, mul_comm (specMean r t)] at k1
  rw [e2, mul_comm (specSigma r t)] at k2
  refine ⟨A.rd ((b.lit A).meanEnergyR A F t * 1000), A.rd ((b.lit A).stdDeviationR A F t * 1000), ?_, ?_, k2.1, ?_, ?_⟩
  · unfold ballabioDistR
    rw [if_neg g, if_neg (not_le.2 k2.1)]
  · simp only [neutronEnergySpectrum, hb]
    rw [if_neg g0, e1, e2, if_neg (by linarith), mul_comm _ (1000 : ℝ), mul_comm _ (1000 : ℝ)]
  · refine (k1.rel (by linarith)).trans (mul_le_mul_of_nonneg_right (by linarith) k1.2.1.le)
  · refine (k2.rel (by linarith)).trans (mul_le_mul_of_nonneg_right (by linarith) k2.2.1.le)

/-- C99.  The Gaussian spectrum in floating point. -/
theorem C99_gaussian (hA : StandardModel A u) (hF : AccurateLib F v) (huv : u ≤ v) (hv : v ≤ 1 / 10 ^ 11) {pi : ℝ}
    (hpi : |pi - Real.pi| ≤ u * Real.pi) {t : ℝ} (h1 : 1 / 10 ≤ t) (h2 : t ≤ 40) {r : Neutronic} {b : Ballabio}
    (hb : (Reaction.n r).ballabio = some b) :
    ∃ s s' : List (ℝ × ℝ), energySpectrum t (.n r) .BALLABIO_GAUSSIAN = .ok (some s, []) ∧
      ballabioSpectrumR A F pi (b.lit A) t .BALLABIO_GAUSSIAN = .ok s' ∧
      SameSpectrum (125 * v) (280000 * v / Real.sqrt t) s' s ∧ UsableSpectrum (1050 * v) s' :=
  gaussian_core hA hF huv hv hpi h1 h2 hb

/-- C99.  The modified Gaussian spectrum in floating point. -/
theorem C99_modified (hA : StandardModel A u) (hF : AccurateLib F v) (huv : u ≤ v) (hv : v ≤ 1 / 10 ^ 11) (pi : ℝ)
    {t : ℝ} (h1 : 1 / 10 ≤ t) (h2 : t ≤ 40) {r : Neutronic} {b : Ballabio} (hb : (Reaction.n r).ballabio = some b) :
    ∃ s s' : List (ℝ × ℝ), energySpectrum t (.n r) .BALLABIO_M_GAUSSIAN = .ok (some s, []) ∧
      ballabioSpectrumR A F pi (b.lit A) t .BALLABIO_M_GAUSSIAN = .ok s' ∧
      SameSpectrum (125 * v) (2.5e7 * v / t) s' s ∧ UsableSpectrum (1050 * v) s' := by
  obtain ⟨s, s', o1, o2, o3, o4, -, -⟩ := modified_core hA hF huv hv pi h1 h2 hb
  exact ⟨s, s', o1, o2, o3, o4⟩

/-- C99.  The tables handed to OpenMC, by default or when the modified Gaussian is asked for: close to those of the exact
computation, energies positive and still strictly increasing after the conversion to eV. -/
theorem C99_tabular (hA : StandardModel A u) (hF : AccurateLib F v) (huv : u ≤ v) (hv : v ≤ 1 / 10 ^ 11) (pi : ℝ)
    {t : ℝ} (h1 : 1 / 10 ≤ t) (h2 : t ≤ 40) {r : Neutronic} {b : Ballabio} (hb : (Reaction.n r).ballabio = some b)
    {m : SpectrumMethod} (hm : m = .AUTO ∨ m = .BALLABIO_M_GAUSSIAN) :
    ∃ s s' : List (ℝ × ℝ), neutronEnergySpectrum m (.n r) t = .ok (.tabular s) ∧
      ballabioDistR A F pi (b.lit A) t m = .ok (.tabular s') ∧
      SameSpectrum (127 * v) (2.5e7 * v / t) s' s ∧
      s'.Pairwise (fun p q => p.1 < q.1) ∧ ∀ p ∈ s', 0 < p.1 ∧ 0 < p.2 := by
  have h0 := hA.u_nonneg
  have hv0 : 0 ≤ v := h0.trans huv
  have hu : u ≤ 1 / 100 := by linarith
  obtain ⟨-, q, -, H, -⟩ := moments_of hA hF huv hv h1 h2 hb
  have hmu := H.mu_pos
  obtain ⟨s, s', o1, o2, o3, o4, o5, o6⟩ := modified_core hA hF huv hv pi h1 h2 hb
  set mu := b.meanEnergy t
  have rdm : ∀ x : ℝ, 0 < x → x ≤ 1.61 * mu → |A.rd (x * 1000) - x * 1000| ≤ 2000 * v * mu := by
    intro x hx hx'
    refine (hA.rel _).trans ?_
    rw [abs_of_pos (by linarith)]
    have := mul_le_mul huv (show x * 1000 ≤ 1610 * mu by linarith) (by linarith) hv0
    have : 0 ≤ v * mu := by positivity
    linarith
  refine ⟨s.map (fun p => (p.1 * 1000, p.2)), s'.map fun p => (A.rd (p.1 * 1000), p.2), ?_, ?_, ?_, ?_, ?_⟩
  · have e : energySpectrum t (.n r) m = .ok (some s, []) := by
      rcases hm with rfl | rfl
      · rw [← o1]
        cases r with
        | D_T => rfl
        | D_D => rfl
        | T_T => simp [Reaction.ballabio] at hb
      · exact o1
    rcases hm with rfl | rfl <;> simp only [neutronEnergySpectrum, e, Bind.bind, Except.bind]
  · rcases hm with rfl | rfl <;> simp only [ballabioDistR, o2, Bind.bind, Except.bind]
  · unfold SameSpectrum at o3 ⊢
    rw [List.forall₂_map_left_iff, List.forall₂_map_right_iff]
    have pos := o4.energies
    clear o1 o2 o4 o5 o6
    induction o3 with
    | nil => exact .nil
    | cons h _ ih =>
      rename_i p' p l' l _
      refine .cons ⟨?_, h.2⟩ (ih fun x hx => pos x (List.mem_cons_of_mem _ hx))
      have hp' := pos p' (by simp)
      obtain ⟨a1, a2⟩ := abs_le.1 h.1
      have hp : 0 ≤ p.1 := by
        by_contra hn
        push Not at hn
        have := (abs_nonneg _).trans h.1
        nlinarith
      have r := hA.rel (p'.1 * 1000)
      rw [abs_of_pos (by linarith : 0 < p'.1 * 1000)] at r
      have k : u * (p'.1 * 1000) ≤ v * (p'.1 * 1000) := mul_le_mul_of_nonneg_right huv (by linarith)
      have k2 : v * p'.1 ≤ v * (1.01 * p.1) := mul_le_mul_of_nonneg_left (by nlinarith) hv0
      obtain ⟨b1, b2⟩ := abs_le.1 r
      have k3 : 0 ≤ v * p.1 := mul_nonneg hv0 hp
      show |A.rd (p'.1 * 1000) - p.1 * 1000| ≤ 127 * v * (p.1 * 1000)
      rw [abs_le]
      constructor <;> linarith
  · rw [List.pairwise_map]
    refine o6.imp_of_mem ?_
    intro x y hx hy hxy
    obtain ⟨_, _⟩ := abs_le.1 (rdm x.1 (o4.energies x hx) (o5 x hx))
    obtain ⟨_, _⟩ := abs_le.1 (rdm y.1 (o4.energies y hy) (o5 y hy))
    have : 0 ≤ v * mu := by positivity
    show A.rd (x.1 * 1000) < A.rd (y.1 * 1000)
    linarith
  · intro p hp
    obtain ⟨x, hx, rfl⟩ := List.mem_map.1 hp
    exact ⟨(LC.rd hA hu le_rfl (by have := o4.energies x hx; linarith)).1, o4.densities x hx⟩

end

theorem linspaceR_exact (a b : ℝ) : linspaceR exactArith a b = linspace a b 1000 := by
  have rdid : ∀ x, exactArith.rd x = x := fun _ => rfl
  unfold linspaceR linspace
  refine List.map_congr_left fun i _ => ?_
  simp only [rdid]
  have : (((1000 : ℕ) : ℝ) - 1) = 999 := by norm_num
  rw [this]
  by_cases h : i = 999
  · rw [if_pos h, h]; push_cast; ring
  · rw [if_neg h]; ring

theorem prepareR_exact (l : List (ℝ × ℝ)) : prepareEnergyPdfR exactArith l = prepareEnergyPdf l := by
  have rdid : ∀ x, exactArith.rd x = x := fun _ => rfl
  have np : exactArith.npSum = List.sum := rfl
  unfold prepareEnergyPdfR prepareEnergyPdf
  simp only [rdid, np, trapezoidTermsR_exact]

/-- C99.  Without rounding these are the spectra of the exact model. -/
theorem C99_exact (b : Ballabio) (t : ℝ) (m : SpectrumMethod) :
    ballabioSpectrumR exactArith exactLib Real.pi (b.lit exactArith) t m = ballabioSpectrum b t m := by
  have rdid : ∀ x, exactArith.rd x = x := fun _ => rfl
  have le : exactLib.exp = Real.exp := rfl
  have ls : exactLib.sqrt = Real.sqrt := rfl
  have lp : ∀ x y : ℝ, exactLib.pow x y = x ^ y := fun _ _ => rfl
  have lit : b.lit exactArith = b := rfl
  have d1 : ∀ c : BallabioCoefficients, c.denR exactArith exactLib t = 1 + c.a2 * t ^ c.a3 := fun _ => rfl
  have f1 : ∀ c : BallabioCoefficients, c.fitR exactArith exactLib t = c.fit t := fun _ => rfl
  have m1 : b.meanEnergyR exactArith exactLib t = b.meanEnergy t := rfl
  have s1 : b.stdDeviationR exactArith exactLib t = b.stdDeviation t := rfl
  have g1 : ∀ mu sigma : ℝ, energyGridR exactArith mu sigma = linspace (mu - 6 * sigma) (mu + 6 * sigma) 1000 := by
    intro mu sigma
    unfold energyGridR
    simp only [rdid, linspaceR_exact]
  unfold ballabioSpectrumR ballabioSpectrum
  rw [lit, m1, s1, d1, d1]
  generalize b.meanEnergy t = mu
  generalize b.stdDeviation t = sigma
  have eg : gaussianEnergySpectrumR exactArith exactLib Real.pi mu sigma = gaussianEnergySpectrum mu sigma := by
    unfold gaussianEnergySpectrumR gaussianEnergySpectrum
    rw [prepareR_exact, g1]
    generalize linspace (mu - 6 * sigma) (mu + 6 * sigma) 1000 = grid
    have : ∀ e : ℝ, gaussianPdfR exactArith exactLib Real.pi mu sigma e =
        1 / (sigma * Real.sqrt (2 * Real.pi)) * Real.exp (-((e - mu) ^ 2) / (2 * sigma ^ 2)) := by
      intro e
      simp only [gaussianPdfR, rdid, le, ls, lp, Real.rpow_two, pow_two]
    simp only [this]
  have em : modifiedGaussianEnergySpectrumR exactArith exactLib mu sigma = modifiedGaussianEnergySpectrum mu sigma := by
    unfold modifiedGaussianEnergySpectrumR modifiedGaussianEnergySpectrum
    rw [prepareR_exact, g1]
    generalize linspace (mu - 6 * sigma) (mu + 6 * sigma) 1000 = grid
    have a1 : mgFactorR exactArith exactLib mu sigma = 1.0 - 1.5 * (sigma / mu) ^ 2 := by
      simp only [mgFactorR, rdid, le, ls, lp, Real.rpow_two]; norm_num
    have a2 : mgEBarR exactArith exactLib mu sigma = mu * Real.sqrt (1.0 - 1.5 * (sigma / mu) ^ 2) := by
      simp only [mgEBarR, a1, rdid, le, ls, lp]
    have a3 : mgSigmaSqR exactArith exactLib mu sigma =
        4.0 / 3.0 * mu ^ 2 * (Real.sqrt (1.0 - 1.5 * (sigma / mu) ^ 2) - (1.0 - 1.5 * (sigma / mu) ^ 2)) := by
      simp only [mgSigmaSqR, a1, rdid, le, ls, lp, Real.rpow_two]; norm_num
    have a4 : ∀ eb ss e : ℝ, mgPdfR exactArith exactLib eb ss e =
        Real.exp (-2.0 * eb * (Real.sqrt e - Real.sqrt eb) ^ 2 / ss) := by
      intro eb ss e
      simp only [mgPdfR, mgRootR, rdid, le, ls, lp]
      norm_num
      ring_nf
    simp only [a2, a3, a4]
    rw [a1]
  by_cases h : t < 0 ∨ 1 + b.shift.a2 * t ^ b.shift.a3 = 0 ∨ 1 + b.width.a2 * t ^ b.width.a3 = 0
  · rw [if_pos h, if_pos h]
  · rw [if_neg h, if_neg h]
    cases m <;> simp only [eg, em]

/-- C99 for binary64, with library functions accurate to four units in the last place. -/
theorem C99_binary64 {F : MathLib} (hF : AccurateLib F (4 * (2 : ℝ) ^ (-53 : ℤ))) {pi : ℝ}
    (hpi : |pi - Real.pi| ≤ (2 : ℝ) ^ (-53 : ℤ) * Real.pi) {t : ℝ} (h1 : 1 / 10 ≤ t) (h2 : t ≤ 40) {r : Neutronic}
    {b : Ballabio} (hb : (Reaction.n r).ballabio = some b) :
    (∃ s s' : List (ℝ × ℝ), energySpectrum t (.n r) .BALLABIO_GAUSSIAN = .ok (some s, []) ∧
      ballabioSpectrumR binary64 F pi (b.lit binary64) t .BALLABIO_GAUSSIAN = .ok s' ∧
      SameSpectrum (1 / 10 ^ 13) (1.3e-10 / Real.sqrt t) s' s ∧ UsableSpectrum (1 / 10 ^ 12) s') ∧
    ∃ s s' : List (ℝ × ℝ), energySpectrum t (.n r) .BALLABIO_M_GAUSSIAN = .ok (some s, []) ∧
      ballabioSpectrumR binary64 F pi (b.lit binary64) t .BALLABIO_M_GAUSSIAN = .ok s' ∧
      SameSpectrum (1 / 10 ^ 13) (1.2e-8 / t) s' s ∧ UsableSpectrum (1 / 10 ^ 12) s' := by
  have hu := u53
  have hA := C74_binary64
  have huv : (2 : ℝ) ^ (-53 : ℤ) ≤ 4 * (2 : ℝ) ^ (-53 : ℤ) := by
    have : (0 : ℝ) < (2 : ℝ) ^ (-53 : ℤ) := by positivity
    linarith
  have hv : 4 * (2 : ℝ) ^ (-53 : ℤ) ≤ 4.5 / 10 ^ 16 := by
    have : (2 : ℝ) ^ (-53 : ℤ) ≤ 1.12 / 10 ^ 16 := by
      rw [zpow_neg, show (53 : ℤ) = ((53 : ℕ) : ℤ) by norm_num, zpow_natCast]
      norm_num
    linarith
  have hv0 : 0 ≤ 4 * (2 : ℝ) ^ (-53 : ℤ) := by positivity
  have same : ∀ {a a' c c' : ℝ} {s s' : List (ℝ × ℝ)}, a ≤ a' → c ≤ c' → 0 ≤ a → 0 ≤ c →
      (∀ p ∈ s', 0 < p.1 ∧ 0 < p.2) → SameSpectrum a c s' s → SameSpectrum a' c' s' s := by
    intro a a' c c' s s' ha hc a0 c0 hp h
    unfold SameSpectrum at h ⊢
    induction h with
    | nil => exact .nil
    | cons h _ ih =>
      rename_i p' p l' l _
      obtain ⟨q1, q2⟩ := hp p' (by simp)
      refine .cons ⟨h.1.trans ?_, h.2.trans ?_⟩ (ih fun x hx => hp x (List.mem_cons_of_mem _ hx))
      · refine mul_le_mul_of_nonneg_right ha ?_
        by_contra hn
        push Not at hn
        have := (abs_le.1 h.1).2
        nlinarith
      · refine mul_le_mul_of_nonneg_right hc ?_
        by_contra hn
        push Not at hn
        obtain ⟨k1, k2⟩ := abs_le.1 h.2
        nlinarith
  have st : 1 / 10 ≤ Real.sqrt t := by
    refine Real.le_sqrt_of_sq_le ?_
    norm_num
    linarith
  generalize 4 * (2 : ℝ) ^ (-53 : ℤ) = v at *
  constructor
  · obtain ⟨s, s', o1, o2, o3, o4⟩ := C99_gaussian hA hF huv (by linarith) hpi h1 h2 hb
    refine ⟨s, s', o1, o2, same (by linarith) ?_ (by positivity) (by positivity)
      (fun p hp => ⟨o4.energies p hp, o4.densities p hp⟩) o3, ⟨o4.sorted, o4.energies, o4.densities, o4.unit.trans (by linarith)⟩⟩
    · exact div_le_div_of_nonneg_right (by norm_num at *; linarith) (by linarith)
  · obtain ⟨s, s', o1, o2, o3, o4⟩ := C99_modified hA hF huv (by linarith) pi h1 h2 hb
    refine ⟨s, s', o1, o2, same (by linarith) ?_ (by positivity) (by positivity)
      (fun p hp => ⟨o4.energies p hp, o4.densities p hp⟩) o3, ⟨o4.sorted, o4.energies, o4.densities, o4.unit.trans (by linarith)⟩⟩
    · exact div_le_div_of_nonneg_right (by norm_num at *; linarith) (by linarith)

/-- The hypotheses hold for D-T at 10 keV with a correctly rounding library. -/
example : AccurateLib roundedLib (4 * (2 : ℝ) ^ (-53 : ℤ)) ∧ (1 : ℝ) / 10 ≤ 10 ∧ (10 : ℝ) ≤ 40 ∧
    (Reaction.n .D_T).ballabio = some ballabioDT := ⟨accurate_libs.2, by norm_num, by norm_num, rfl⟩

end
end TNS
