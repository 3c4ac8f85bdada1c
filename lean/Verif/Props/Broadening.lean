import Verif.Props.Moments
import Verif.Props.SourceLimit
import Mathlib.Analysis.Calculus.Deriv.MeanValue
import Mathlib.Analysis.SpecialFunctions.Pow.Deriv
import Mathlib.Analysis.SpecialFunctions.Sqrt
/-
C109: hotter ions give faster neutrons and broader spectra.
-/

set_option autoImplicit false

namespace TNS
open Spec
noncomputable section

/-- The slope of the fit. -/
theorem fit_deriv (a1 a2 a3 a4 t : ℝ) (ht : 0 < t) (hd : 1 + a2 * t ^ a3 ≠ 0) :
    HasDerivAt (ballabioFit a1 a2 a3 a4)
      (a1 * (t ^ ((2 : ℝ) / 3) / t) * ((2 / 3 * (1 + a2 * t ^ a3) - a3 * (a2 * t ^ a3)) / (1 + a2 * t ^ a3) ^ 2) + a4) t := by
  have h1 : HasDerivAt (fun x : ℝ => x ^ ((2 : ℝ) / 3)) (2 / 3 * (t ^ ((2 : ℝ) / 3) / t)) t := by
    have := Real.hasDerivAt_rpow_const (x := t) (p := (2 : ℝ) / 3) (Or.inl ht.ne')
    rwa [Real.rpow_sub_one ht.ne'] at this
  have h2 : HasDerivAt (fun x : ℝ => x ^ a3) (a3 * (t ^ a3 / t)) t := by
    have := Real.hasDerivAt_rpow_const (x := t) (p := a3) (Or.inl ht.ne')
    rwa [Real.rpow_sub_one ht.ne'] at this
  have h := ((h1.const_mul a1).div ((h2.const_mul a2).const_add 1) hd).add ((hasDerivAt_id t).const_mul a4)
  refine h.congr_deriv ?_
  field_simp

/-- The bracket in the slope is never far below zero. -/
theorem bracket_lower (p b y : ℝ) (hp : 0 < p) (hpb : p < b) (hy : 0 ≤ y) :
    -((b - p) ^ 2 / (4 * b)) ≤ (p * (1 + y) - b * y) / (1 + y) ^ 2 := by
  have h1 : 0 < (1 + y) ^ 2 := by positivity
  have hb : 0 < 4 * b := by linarith
  rw [neg_div', div_le_div_iff₀ hb h1]
  nlinarith [sq_nonneg ((b - p) * y - (b + p))]

theorem third_power (t : ℝ) (ht : 0 < t) : 0 < t ^ ((2 : ℝ) / 3) / t ∧ (1 ≤ t → t ^ ((2 : ℝ) / 3) / t ≤ 1) := by
  refine ⟨div_pos (Real.rpow_pos_of_pos ht _) ht, fun h => ?_⟩
  rw [div_le_one ht]
  calc t ^ ((2 : ℝ) / 3) ≤ t ^ (1 : ℝ) := Real.rpow_le_rpow_of_exponent_le h (by norm_num)
    _ = t := Real.rpow_one t

/-- The slope of a fit with positive coefficients is above `a4 - a1 (a3 - 2/3)² / (4 a3)`. -/
theorem slope_lower (a1 a2 a3 a4 t : ℝ) (ht : 0 < t) (h1 : 0 < a1) (h2 : 0 < a2) (h3 : 2 / 3 < a3)
    (hsmall : (a3 - 2 / 3) * a2 ≤ 2 / 3) :
    a4 - a1 * ((a3 - 2 / 3) ^ 2 / (4 * a3)) ≤
      a1 * (t ^ ((2 : ℝ) / 3) / t) * ((2 / 3 * (1 + a2 * t ^ a3) - a3 * (a2 * t ^ a3)) / (1 + a2 * t ^ a3) ^ 2) + a4 := by
  obtain ⟨q0, q1⟩ := third_power t ht
  have hy : 0 < t ^ a3 := Real.rpow_pos_of_pos ht _
  have hc : 0 ≤ (a3 - 2 / 3) ^ 2 / (4 * a3) := by have : 0 < a3 := by linarith
                                                  positivity
  rcases le_total 1 t with h | h
  · have b := bracket_lower (2 / 3) a3 (a2 * t ^ a3) (by norm_num) h3 (by positivity)
    have q := q1 h
    set B := (2 / 3 * (1 + a2 * t ^ a3) - a3 * (a2 * t ^ a3)) / (1 + a2 * t ^ a3) ^ 2
    set Q := t ^ ((2 : ℝ) / 3) / t
    set k := (a3 - 2 / 3) ^ 2 / (4 * a3)
    have e1 : Q * (-k) ≤ Q * B := mul_le_mul_of_nonneg_left b q0.le
    have e2 : -k ≤ Q * (-k) := by nlinarith
    have e3 : a1 * (-k) ≤ a1 * (Q * B) := mul_le_mul_of_nonneg_left (e2.trans e1) h1.le
    have : a1 * Q * B = a1 * (Q * B) := by ring
    linarith
  · have hy1 : t ^ a3 ≤ 1 := Real.rpow_le_one ht.le h (by linarith)
    have hb : 0 ≤ (2 / 3 * (1 + a2 * t ^ a3) - a3 * (a2 * t ^ a3)) / (1 + a2 * t ^ a3) ^ 2 := by
      refine div_nonneg ?_ (by positivity)
      have : (a3 - 2 / 3) * a2 * t ^ a3 ≤ 2 / 3 :=
        (mul_le_of_le_one_right (mul_nonneg (by linarith) h2.le) hy1).trans hsmall
      nlinarith
    have : 0 ≤ a1 * (t ^ ((2 : ℝ) / 3) / t) *
        ((2 / 3 * (1 + a2 * t ^ a3) - a3 * (a2 * t ^ a3)) / (1 + a2 * t ^ a3) ^ 2) := mul_nonneg (by positivity) hb
    have : 0 ≤ a1 * ((a3 - 2 / 3) ^ 2 / (4 * a3)) := by positivity
    linarith

theorem strictMono_of_slope (f f' : ℝ → ℝ) (hd : ∀ t ∈ Set.Ioc (0 : ℝ) 40, HasDerivAt f (f' t) t)
    (hp : ∀ t ∈ Set.Ioc (0 : ℝ) 40, 0 < f' t) : StrictMonoOn f (Set.Ioc 0 40) := by
  refine strictMonoOn_of_deriv_pos (convex_Ioc 0 40) (fun t ht => (hd t ht).continuousAt.continuousWithinAt) fun t ht => ?_
  have ht' : t ∈ Set.Ioc (0 : ℝ) 40 := interior_subset ht
  rw [(hd t ht').deriv]
  exact hp t ht'

theorem pos_den (a2 a3 t : ℝ) (ht : 0 < t) (h2 : 0 < a2) : 1 + a2 * t ^ a3 ≠ 0 := by
  have : 0 < t ^ a3 := Real.rpow_pos_of_pos ht _
  positivity

theorem meanDT_mono : StrictMonoOn meanDT (Set.Ioc 0 40) := by
  have h := strictMono_of_slope _ _ (fun t ht => fit_deriv 5.30509 2.4736e-3 1.84 1.3818 t ht.1
    (pos_den _ _ t ht.1 (by norm_num))) (fun t ht => by
    have := slope_lower 5.30509 2.4736e-3 1.84 1.3818 t ht.1 (by norm_num) (by norm_num) (by norm_num) (by norm_num)
    refine lt_of_lt_of_le ?_ this
    norm_num)
  intro s hs t ht hst
  have := h hs ht hst
  unfold meanDT
  linarith

theorem dd_den (t : ℝ) (ht : t ∈ Set.Ioc (0 : ℝ) 40) :
    0 < t ^ (0.47 : ℝ) ∧ 0 < 1 + (-0.040729) * t ^ (0.47 : ℝ) := by
  obtain ⟨q1, q2⟩ := rpow_bounds t 0.47 ht.1 ht.2 (by norm_num) (by norm_num)
  exact ⟨q1, by norm_num at q2 ⊢; linarith⟩

theorem meanDD_mono : StrictMonoOn meanDD (Set.Ioc 0 40) := by
  have h := strictMono_of_slope _ _ (fun t ht => fit_deriv 4.69515 (-0.040729) 0.47 0.81844 t ht.1 (dd_den t ht).2.ne')
    (fun t ht => by
      obtain ⟨q1, q2⟩ := dd_den t ht
      have hb : 0 ≤ (2 / 3 * (1 + (-0.040729) * t ^ (0.47 : ℝ)) - 0.47 * ((-0.040729) * t ^ (0.47 : ℝ))) /
          (1 + (-0.040729) * t ^ (0.47 : ℝ)) ^ 2 := by
        refine div_nonneg ?_ (sq_nonneg _)
        linarith
      have := mul_nonneg (mul_nonneg (by norm_num : (0 : ℝ) ≤ 4.69515) (third_power t ht.1).1.le) hb
      have : (0 : ℝ) < 0.81844 := by norm_num
      linarith)
  intro s hs t ht hst
  have := h hs ht hst
  unfold meanDD
  linarith

/-- `(1 + δ) √t` increases with `t` if `δ` does not fall too fast. -/
theorem width_mono (δ δ' : ℝ → ℝ) (k w : ℝ) (hw : 0 < w) (hd : ∀ t ∈ Set.Ioc (0 : ℝ) 40, HasDerivAt δ (δ' t) t)
    (h0 : ∀ t ∈ Set.Ioc (0 : ℝ) 40, 0 ≤ δ t) (hk : ∀ t ∈ Set.Ioc (0 : ℝ) 40, -k ≤ δ' t) (hk0 : 0 ≤ k) (hk1 : k ≤ 1 / 100) :
    StrictMonoOn (fun t => w * (1 + δ t) * Real.sqrt t / 2.3548200450309493) (Set.Ioc 0 40) := by
  refine strictMono_of_slope _ (fun t => (w * δ' t * Real.sqrt t + w * (1 + δ t) * (1 / (2 * Real.sqrt t))) / 2.3548200450309493)
    (fun t ht => ?_) fun t ht => ?_
  · exact ((((hd t ht).const_add 1).const_mul w).mul (Real.hasDerivAt_sqrt ht.1.ne')).div_const _
  · have hs : 0 < Real.sqrt t := Real.sqrt_pos.2 ht.1
    have e : w * δ' t * Real.sqrt t + w * (1 + δ t) * (1 / (2 * Real.sqrt t)) =
        w / Real.sqrt t * (δ' t * t + (1 + δ t) / 2) := by
      field_simp
      rw [Real.sq_sqrt ht.1.le]
      ring
    rw [e]
    refine div_pos (mul_pos (div_pos hw hs) ?_) (by norm_num)
    have a := h0 t ht
    have b : -k * t ≤ δ' t * t := mul_le_mul_of_nonneg_right (hk t ht) ht.1.le
    have c : k * t ≤ 1 / 100 * 40 := mul_le_mul hk1 ht.2 ht.1.le (by norm_num)
    nlinarith

theorem sigmaDT_mono : StrictMonoOn sigmaDT (Set.Ioc 0 40) := by
  refine width_mono (ballabioFit 5.1068e-4 7.6223e-3 1.78 8.7691e-5) _ (1 / 1000) 177.259 (by norm_num)
    (fun t ht => fit_deriv _ _ _ _ t ht.1 (pos_den _ _ t ht.1 (by norm_num))) (fun t ht => ?_) (fun t ht => ?_) (by norm_num)
    (by norm_num)
  · have := Real.rpow_pos_of_pos ht.1 (1.78 : ℝ)
    have := Real.rpow_pos_of_pos ht.1 ((2 : ℝ) / 3)
    have := ht.1
    unfold ballabioFit
    positivity
  · have := slope_lower 5.1068e-4 7.6223e-3 1.78 8.7691e-5 t ht.1 (by norm_num) (by norm_num) (by norm_num) (by norm_num)
    refine le_trans ?_ this
    norm_num

/-- The D-D correction itself increases. -/
theorem dd_bracket (t : ℝ) (ht : t ∈ Set.Ioc (0 : ℝ) 40) : 0 ≤ 1.7013e-3 * (t ^ ((2 : ℝ) / 3) / t) *
    ((2 / 3 * (1 + 0.16888 * t ^ (0.49 : ℝ)) - 0.49 * (0.16888 * t ^ (0.49 : ℝ))) / (1 + 0.16888 * t ^ (0.49 : ℝ)) ^ 2) +
      7.946e-4 := by
  have h := Real.rpow_pos_of_pos ht.1 (0.49 : ℝ)
  have q := (third_power t ht.1).1
  have hb : 0 ≤ (2 / 3 * (1 + 0.16888 * t ^ (0.49 : ℝ)) - 0.49 * (0.16888 * t ^ (0.49 : ℝ))) /
      (1 + 0.16888 * t ^ (0.49 : ℝ)) ^ 2 := by
    refine div_nonneg ?_ (sq_nonneg _)
    norm_num at h ⊢
    linarith
  have := mul_nonneg (mul_nonneg (by norm_num : (0 : ℝ) ≤ 1.7013e-3) q.le) hb
  have : (0 : ℝ) < 7.946e-4 := by norm_num
  linarith

theorem sigmaDD_mono : StrictMonoOn sigmaDD (Set.Ioc 0 40) := by
  refine width_mono (ballabioFit 1.7013e-3 0.16888 0.49 7.946e-4) _ 0 82.542 (by norm_num)
    (fun t ht => fit_deriv _ _ _ _ t ht.1 (pos_den _ _ t ht.1 (by norm_num))) (fun t ht => ?_) (fun t ht => ?_) le_rfl
    (by norm_num)
  · have := Real.rpow_pos_of_pos ht.1 (0.49 : ℝ)
    have := Real.rpow_pos_of_pos ht.1 ((2 : ℝ) / 3)
    have := ht.1
    unfold ballabioFit
    positivity
  · rw [neg_zero]
    exact dd_bracket t ht

/-- **C109**: the published mean energy and the published width of the D-T and D-D spectra increase strictly with the ion
temperature, up to 40 keV. -/
theorem C109_published (r : Neutronic) (hr : r ≠ .T_T) :
    StrictMonoOn (specMean r) (Set.Ioc 0 40) ∧ StrictMonoOn (specSigma r) (Set.Ioc 0 40) := by
  cases r with
  | D_T => exact ⟨meanDT_mono, sigmaDT_mono⟩
  | D_D => exact ⟨meanDD_mono, sigmaDD_mono⟩
  | T_T => exact absurd rfl hr

/-- **C109**, Gaussian spectra in OpenMC: of two temperatures (in (0, 40] keV), the higher one gives the normal distribution
with the larger mean and the larger standard deviation. So different temperatures never give the same distribution. -/
theorem C109_gaussian (r : Neutronic) (hr : r ≠ .T_T) (s t : ℝ) (hs : 0 < s) (hst : s < t) (h40 : t ≤ 40) :
    ∃ m1 w1 m2 w2, neutronEnergySpectrum .BALLABIO_GAUSSIAN (.n r) s = .ok (.normal m1 w1) ∧
      neutronEnergySpectrum .BALLABIO_GAUSSIAN (.n r) t = .ok (.normal m2 w2) ∧ m1 < m2 ∧ 0 < w1 ∧ w1 < w2 := by
  obtain ⟨hm, hw⟩ := C109_published r hr
  have h1 : s ∈ Set.Ioc (0 : ℝ) 40 := ⟨hs, hst.le.trans h40⟩
  have h2 : t ∈ Set.Ioc (0 : ℝ) 40 := ⟨hs.trans hst, h40⟩
  have key : ∀ x ∈ Set.Ioc (0 : ℝ) 40, neutronEnergySpectrum .BALLABIO_GAUSSIAN (.n r) x =
      .ok (.normal (1000 * specMean r x) (1000 * specSigma r x)) ∧ 0 < specSigma r x := by
    intro x hx
    obtain ⟨d, hd, h⟩ := C69_distribution r x hx.1 hx.2 .BALLABIO_GAUSSIAN (by simp)
    rw [hd]
    cases h with
    | normal _ _ h => exact ⟨rfl, h⟩
    | modified _ _ h => exact absurd rfl h
    | data _ _ h => exact absurd h hr
  refine ⟨_, _, _, _, (key s h1).1, (key t h2).1, ?_, ?_, ?_⟩
  · have := hm h1 h2 hst
    linarith
  · have := (key s h1).2
    linarith
  · have := hw h1 h2 hst
    linarith

/-- The published width grows at least like a root of the temperature, up to one percent. -/
theorem width_ratio (r : Neutronic) (hr : r ≠ .T_T) (s t : ℝ) (hs : 0 < s) (hst : 1.1 * s ≤ t) (h40 : t ≤ 40) :
    1.03 * specSigma r s ≤ specSigma r t := by
  have ht : 0 < t := by linarith
  have h1 : s ∈ Set.Ioc (0 : ℝ) 40 := ⟨hs, by linarith⟩
  have h2 : t ∈ Set.Ioc (0 : ℝ) 40 := ⟨ht, h40⟩
  have hroot : 1.0488 * Real.sqrt s ≤ Real.sqrt t := by
    refine Real.le_sqrt_of_sq_le ?_
    rw [mul_pow, Real.sq_sqrt hs.le]
    nlinarith
  have s0 := Real.sqrt_nonneg s
  have final : ∀ w a b : ℝ, 0 < w → 0 ≤ b → 1.03 * (1 + a) ≤ 1.0488 * (1 + b) →
      1.03 * (w * (1 + a) * Real.sqrt s / 2.3548200450309493) ≤ w * (1 + b) * Real.sqrt t / 2.3548200450309493 := by
    intro w a b hw hb hab
    rw [← mul_div_assoc]
    refine div_le_div_of_nonneg_right ?_ (by norm_num)
    have c1 : w * (1 + b) * (1.0488 * Real.sqrt s) ≤ w * (1 + b) * Real.sqrt t :=
      mul_le_mul_of_nonneg_left hroot (by positivity)
    have c2 : w * Real.sqrt s * (1.03 * (1 + a)) ≤ w * Real.sqrt s * (1.0488 * (1 + b)) :=
      mul_le_mul_of_nonneg_left hab (by positivity)
    nlinarith
  have nonneg : ∀ a1 a2 a3 a4 x : ℝ, 0 < a1 → 0 < a2 → 0 < a4 → 0 < x → 0 ≤ ballabioFit a1 a2 a3 a4 x := by
    intro a1 a2 a3 a4 x k1 k2 k4 hx
    have := Real.rpow_pos_of_pos hx a3
    have := Real.rpow_pos_of_pos hx ((2 : ℝ) / 3)
    unfold ballabioFit
    positivity
  cases r with
  | T_T => exact absurd rfl hr
  | D_T =>
    refine final 177.259 _ _ (by norm_num) (nonneg _ _ _ _ t (by norm_num) (by norm_num) (by norm_num) ht) ?_
    have k := nonneg 5.1068e-4 7.6223e-3 1.78 8.7691e-5 t (by norm_num) (by norm_num) (by norm_num) ht
    have j : ballabioFit 5.1068e-4 7.6223e-3 1.78 8.7691e-5 s ≤ 0.01 := by
      have p := (rpow_two_thirds s hs h1.2).2
      have q : 5.1068e-4 * s ^ ((2 : ℝ) / 3) / (1 + 7.6223e-3 * s ^ (1.78 : ℝ)) ≤ 5.1068e-4 * s ^ ((2 : ℝ) / 3) := by
        refine div_le_self (by have := Real.rpow_pos_of_pos hs ((2 : ℝ) / 3); positivity) ?_
        have := Real.rpow_pos_of_pos hs (1.78 : ℝ)
        norm_num
        positivity
      unfold ballabioFit
      have := h1.2
      norm_num at p q ⊢
      linarith
    norm_num at j k ⊢
    linarith
  | D_D =>
    refine final 82.542 _ _ (by norm_num) (nonneg _ _ _ _ t (by norm_num) (by norm_num) (by norm_num) ht) ?_
    have k := nonneg 1.7013e-3 0.16888 0.49 7.946e-4 s (by norm_num) (by norm_num) (by norm_num) hs
    have mono : MonotoneOn (ballabioFit 1.7013e-3 0.16888 0.49 7.946e-4) (Set.Ioc 0 40) := by
      have hd : ∀ x ∈ Set.Ioc (0 : ℝ) 40, HasDerivAt (ballabioFit 1.7013e-3 0.16888 0.49 7.946e-4) _ x := fun x hx =>
        fit_deriv 1.7013e-3 0.16888 0.49 7.946e-4 x hx.1 (pos_den _ _ x hx.1 (by norm_num))
      refine monotoneOn_of_deriv_nonneg (convex_Ioc 0 40) (fun x hx => (hd x hx).continuousAt.continuousWithinAt)
        (fun x hx => (hd x (interior_subset hx)).differentiableAt.differentiableWithinAt) fun x hx => ?_
      rw [(hd x (interior_subset hx)).deriv]
      exact dd_bracket x (interior_subset hx)
    have j := mono h1 h2 (by linarith)
    norm_num at j k ⊢
    linarith

/-- **C109**, tables: of two temperatures (in (0, 40] keV) that differ by at least ten percent, the higher one gives the
table with the larger standard deviation, whichever method made the two tables. -/
theorem C109_tables (r : Neutronic) (hr : r ≠ .T_T) (s t : ℝ) (hs : 0 < s) (hst : 1.1 * s ≤ t) (h40 : t ≤ 40)
    (method method' : SpectrumMethod) (hm : method ≠ .DATA) (hm' : method' ≠ .DATA) :
    ∃ l l', energySpectrum s (.n r) method = .ok (some l, []) ∧ energySpectrum t (.n r) method' = .ok (some l', []) ∧
      Real.sqrt (tableVariance l) < Real.sqrt (tableVariance l') := by
  obtain ⟨l, e, -, h⟩ := C80_moments r hr s hs (by linarith) method hm
  obtain ⟨l', e', -, h'⟩ := C80_moments r hr t (by linarith) h40 method' hm'
  refine ⟨l, l', e, e', ?_⟩
  have a := (abs_le.1 h.deviation).2
  have b := (abs_le.1 h'.deviation).1
  have c := width_ratio r hr s t hs hst h40
  have d := (narrow r hr s hs (by linarith)).1
  norm_num at c
  linarith

/-- **C109**, along a profile: where the ion temperature (in (0, 40] keV) never rises outwards, the spectra of the exported
neutrons never get faster or broader outwards. -/
theorem C109_profile (T : ℝ → ℝ) (hT : ∀ rho, 0 < T rho ∧ T rho ≤ 40) (hanti : Antitone T) (r : Neutronic) (hr : r ≠ .T_T)
    (a b : ℝ) (hab : a ≤ b) :
    ∃ m1 w1 m2 w2, neutronEnergySpectrum .BALLABIO_GAUSSIAN (.n r) (T a) = .ok (.normal m1 w1) ∧
      neutronEnergySpectrum .BALLABIO_GAUSSIAN (.n r) (T b) = .ok (.normal m2 w2) ∧ m2 ≤ m1 ∧ w2 ≤ w1 := by
  rcases (hanti hab).lt_or_eq with h | h
  · obtain ⟨m1, w1, m2, w2, e1, e2, h1, -, h2⟩ := C109_gaussian r hr (T b) (T a) (hT b).1 h (hT a).2
    exact ⟨m2, w2, m1, w1, e2, e1, h1.le, h2.le⟩
  · obtain ⟨d, hd, k⟩ := C69_distribution r (T a) (hT a).1 (hT a).2 .BALLABIO_GAUSSIAN (by simp)
    cases k with
    | normal _ _ _ => exact ⟨_, _, _, _, hd, by rw [h]; exact hd, le_rfl, le_rfl⟩
    | modified _ _ h => exact absurd rfl h
    | data _ _ h => exact absurd h hr

/-- D-T neutrons at 10 and 20 keV, by default. -/
example : ∃ l l', energySpectrum 10 (.n .D_T) .AUTO = .ok (some l, []) ∧ energySpectrum 20 (.n .D_T) .AUTO = .ok (some l', []) ∧
    Real.sqrt (tableVariance l) < Real.sqrt (tableVariance l') :=
  C109_tables .D_T (by decide) 10 20 (by norm_num) (by norm_num) (by norm_num) .AUTO .AUTO (by simp) (by simp)

end
end TNS
