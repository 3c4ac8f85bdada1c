import Verif.Lemmas.Bells
import Verif.Props.Energy
import Verif.Props.TTMean
/-
C80: the D-T and D-D spectra have the published mean and width.
-/

set_option autoImplicit false
set_option linter.unusedSectionVars false

namespace TNS
open Spec

/-- The width is at most a tenth of the mean. -/
theorem narrow (r : Neutronic) (hr : r ≠ .T_T) (t : ℝ) (ht : 0 < t) (h40 : t ≤ 40) :
    0 < specSigma r t ∧ 10 * specSigma r t ≤ specMean r t := by
  obtain ⟨⟨-, -, a3, a4, -⟩, -, -, b3, b4, -⟩ := C57_moments t ht h40
  obtain ⟨p1, p2⟩ := rpow_two_thirds t ht h40
  obtain ⟨s1, s2⟩ := sqrt_bounds t ht h40
  have key : ∀ a1 d a4 : ℝ, 0 < a1 → 1 ≤ d → 0 < a4 →
      0 < a1 * t ^ ((2 : ℝ) / 3) / d + a4 * t ∧
      a1 * t ^ ((2 : ℝ) / 3) / d + a4 * t ≤ a1 * 12 + a4 * 40 := by
    intro a1 d a4 h1 hd h4
    constructor
    · positivity
    · have : a1 * t ^ ((2 : ℝ) / 3) / d ≤ a1 * t ^ ((2 : ℝ) / 3) := div_le_self (by positivity) hd
      nlinarith
  have hsig : ∀ w x b : ℝ, 0 < w → 0 < x → x ≤ b → w * (1 + x) * Real.sqrt t / 2.3548200450309493 ≤
      w * (1 + b) * 6.33 / 2.3548200450309493 := by
    intro w x b hw hx hb
    have hb0 : 0 < b := by linarith
    gcongr
  cases r with
  | D_T =>
    refine ⟨a4, ?_⟩
    obtain ⟨k1, k2⟩ := key 5.1068e-4 (1 + 7.6223e-3 * t ^ (1.78 : ℝ)) 8.7691e-5 (by norm_num)
      (by have := Real.rpow_pos_of_pos ht (1.78 : ℝ); norm_num; positivity) (by norm_num)
    have k4 := hsig 177.259 _ _ (by norm_num) k1 k2
    have e : specSigma .D_T t = sigmaDT t := rfl
    have e' : specMean .D_T t = meanDT t := rfl
    rw [e, e']
    have : sigmaDT t ≤ 177.259 * (1 + (5.1068e-4 * 12 + 8.7691e-5 * 40)) * 6.33 / 2.3548200450309493 := k4
    norm_num at this ⊢
    linarith
  | D_D =>
    refine ⟨b4, ?_⟩
    obtain ⟨k1, k2⟩ := key 1.7013e-3 (1 + 0.16888 * t ^ (0.49 : ℝ)) 7.946e-4 (by norm_num)
      (by have := Real.rpow_pos_of_pos ht (0.49 : ℝ); norm_num; positivity) (by norm_num)
    have k4 := hsig 82.542 _ _ (by norm_num) k1 k2
    have e : specSigma .D_D t = sigmaDD t := rfl
    have e' : specMean .D_D t = meanDD t := rfl
    rw [e, e']
    have : sigmaDD t ≤ 82.542 * (1 + (1.7013e-3 * 12 + 7.946e-4 * 40)) * 6.33 / 2.3548200450309493 := k4
    norm_num at this b3 ⊢
    linarith
  | T_T => exact absurd rfl hr

/-- **C80**: for D-T and D-D, at every temperature up to 40 keV, and with each method that uses the published
parameters, the returned table is a density whose mean is the published mean energy up to a third of a percent of
the published width, and whose standard deviation is the published width up to one percent. -/
theorem C80_moments (r : Neutronic) (hr : r ≠ .T_T) (t : ℝ) (ht : 0 < t) (h40 : t ≤ 40)
    (method : SpectrumMethod) (hm : method ≠ .DATA) : ∃ l,
    energySpectrum t (.n r) method = .ok (some l, []) ∧ area l = 1 ∧
      HasMoments l (specMean r t) (specSigma r t) := by
  obtain ⟨hσ, h10⟩ := narrow r hr t ht h40
  obtain ⟨-, ⟨c, hc, e1, a1⟩, ⟨c', hc', e2, a2⟩⟩ := C57_spectra r hr t ht h40
  cases method with
  | DATA => exact absurd rfl hm
  | BALLABIO_GAUSSIAN => exact ⟨_, e1, a1, gaussian_moments _ _ c hσ hc⟩
  | BALLABIO_M_GAUSSIAN => exact ⟨_, e2, a2, modified_moments _ _ c' hσ h10 hc'⟩
  | AUTO =>
    refine ⟨_, ?_, a2, modified_moments _ _ c' hσ h10 hc'⟩
    rw [← e2]
    cases r with
    | T_T => exact absurd rfl hr
    | D_D => rfl
    | D_T => rfl

/-! ### OpenMC -/

theorem moment_stretch (k : ℝ) (hk : 0 < k) (φ : ℝ → ℝ) (l : List (ℝ × ℝ)) :
    moment φ (l.map (fun p => (k * p.1, p.2))) = k * moment (fun x => φ (k * x)) l := by
  induction l with
  | nil => simp [moment]
  | cons p l ih =>
    cases l with
    | nil => simp [moment]
    | cons q l =>
      simp only [moment, List.map_cons, List.tail_cons, List.zipWith_cons_cons, List.sum_cons] at ih ⊢
      rw [ih, mul_add]
      congr 1
      rw [← intervalIntegral.mul_integral_comp_mul_left]
      congr 2
      funext x
      rw [← mul_sub, ← mul_sub, mul_div_mul_left _ _ hk.ne']

theorem hasMoments_stretch (k : ℝ) (hk : 0 < k) (l : List (ℝ × ℝ)) (μ s : ℝ)
    (hs : l.Pairwise (fun p q => p.1 < q.1)) (ha : area l = 1) (h : HasMoments l μ s) :
    HasMoments (l.map (fun p => (k * p.1, p.2))) (k * μ) (k * s) := by
  have e1 : tableMean (l.map (fun p => (k * p.1, p.2))) = k * tableMean l := by
    unfold tableMean
    rw [firstMoment_scale k hk l hs, area_stretch, ha]
    field_simp
  have e2 : tableVariance (l.map (fun p => (k * p.1, p.2))) = k ^ 2 * tableVariance l := by
    unfold tableVariance
    rw [moment_stretch k hk, area_stretch, ha, e1]
    have : (fun x => (k * x - k * tableMean l) ^ 2) = fun x => k ^ 2 * (x - tableMean l) ^ 2 := by
      funext x; ring
    rw [this, moment_smul]
    field_simp
  constructor
  · rw [e1, ← mul_sub, abs_mul, abs_of_pos hk]
    have := mul_le_mul_of_nonneg_left h.mean hk.le
    linarith
  · rw [e2, Real.sqrt_mul (by positivity), Real.sqrt_sq hk.le, ← mul_sub, abs_mul, abs_of_pos hk]
    have := mul_le_mul_of_nonneg_left h.deviation hk.le
    linarith

/-- **C80**, OpenMC: the energy distribution (in eV) of exported D-T and D-D neutrons is the normal distribution
with exactly the published parameters, or a table with the published mean and width up to the same tolerances. -/
theorem C80_openmc (r : Neutronic) (hr : r ≠ .T_T) (t : ℝ) (ht : 0 < t) (h40 : t ≤ 40)
    (method : SpectrumMethod) (hm : method ≠ .DATA) : ∃ d,
    neutronEnergySpectrum method (.n r) t = .ok d ∧
      (d = .normal (1000 * specMean r t) (1000 * specSigma r t) ∨
        ∃ l, d = .tabular l ∧ HasMoments l (1000 * specMean r t) (1000 * specSigma r t)) := by
  obtain ⟨hσ, h10⟩ := narrow r hr t ht h40
  obtain ⟨d, e, hd⟩ := C69_distribution r t ht h40 method (fun h => absurd h hm)
  refine ⟨d, e, ?_⟩
  cases hd with
  | normal _ _ _ => exact Or.inl rfl
  | data _ _ h => exact absurd h hr
  | modified c keV _ _ hc hk hpos hspec =>
    refine Or.inr ⟨_, rfl, hasMoments_stretch 1000 (by norm_num) keV _ _ hspec.sorted hspec.unit ?_⟩
    rw [hk]
    exact modified_moments _ _ c hσ h10 hc

/-- At 20 keV: the D-T spectrum chosen by default. -/
example : ∃ l, energySpectrum 20 (.n .D_T) .AUTO = .ok (some l, []) ∧ area l = 1 ∧
    |tableMean l - meanDT 20| ≤ sigmaDT 20 / 300 ∧ |Real.sqrt (tableVariance l) - sigmaDT 20| ≤ sigmaDT 20 / 100 := by
  obtain ⟨l, a, b, c⟩ := C80_moments .D_T (by decide) 20 (by norm_num) (by norm_num) .AUTO (by decide)
  exact ⟨l, a, b, c.mean, c.deviation⟩

/-- The mean and variance of a table, on a triangle: mean 1, variance 1/6. -/
example : tableMean [(0, 0), (1, 1), (2, (0 : ℝ))] = 1 ∧ tableVariance [(0, 0), (1, 1), (2, (0 : ℝ))] = 1 / 6 := by
  have a : area [((0 : ℝ), (0 : ℝ)), (1, 1), (2, 0)] = 1 := by
    simp only [area, List.tail_cons, List.zipWith_cons_cons, List.zipWith_nil_right, List.sum_cons,
      List.sum_nil]
    norm_num
  have m : tableMean [((0 : ℝ), (0 : ℝ)), (1, 1), (2, 0)] = 1 := by
    unfold tableMean
    rw [a]
    simp only [firstMoment, List.tail_cons, List.zipWith_cons_cons, List.zipWith_nil_right, List.sum_cons,
      List.sum_nil]
    rw [segment_moment _ _ _ _ (by norm_num), segment_moment _ _ _ _ (by norm_num)]
    norm_num
  refine ⟨m, ?_⟩
  unfold tableVariance
  rw [a, m]
  simp only [moment, List.tail_cons, List.zipWith_cons_cons, List.zipWith_nil_right, List.sum_cons,
    List.sum_nil]
  have d1 : ∀ x ∈ Set.uIcc (0 : ℝ) 1, HasDerivAt (fun x : ℝ => x ^ 4 / 4 - 2 * x ^ 3 / 3 + x ^ 2 / 2)
      ((x - 1) ^ 2 * (0 + (1 - 0) * ((x - 0) / (1 - 0)))) x := by
    intro x _
    have := ((((hasDerivAt_id x).pow 4).div_const 4).sub ((((hasDerivAt_id x).pow 3).const_mul 2).div_const 3)).add
      (((hasDerivAt_id x).pow 2).div_const 2)
    refine this.congr_deriv ?_
    simp only [id]; push_cast; ring
  have d2 : ∀ x ∈ Set.uIcc (1 : ℝ) 2, HasDerivAt (fun x : ℝ => (x - 1) ^ 3 / 3 - (x - 1) ^ 4 / 4)
      ((x - 1) ^ 2 * (1 + (0 - 1) * ((x - 1) / (2 - 1)))) x := by
    intro x _
    have := ((((hasDerivAt_id x).sub_const 1).pow 3).div_const 3).sub
      ((((hasDerivAt_id x).sub_const 1).pow 4).div_const 4)
    refine this.congr_deriv ?_
    simp only [id]; push_cast; ring
  rw [intervalIntegral.integral_eq_sub_of_hasDerivAt d1 (by apply Continuous.intervalIntegrable; fun_prop),
    intervalIntegral.integral_eq_sub_of_hasDerivAt d2 (by apply Continuous.intervalIntegrable; fun_prop)]
  norm_num

end TNS
