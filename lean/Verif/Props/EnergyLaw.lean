import Verif.Lemmas.EnergyLaw
import Verif.Lemmas.Interp
import Verif.Props.Moments
import Verif.Props.SourceLimit
/-
The energy distributions that are handed to OpenMC depend continuously on the ion temperature.
-/

set_option autoImplicit false

namespace TNS
open Spec MeasureTheory Topology
noncomputable section

/-! ### T-T -/

/-- The intensity of a row at a temperature. -/
def ttAt (row : List Nat) (t : ℝ) : ℝ :=
  npInterp (List.zip ttTemperatures (row.map (fun n : ℕ => (n : ℝ) / 10 ^ 92 / 1000))) (clip 1 20 t)

theorem ttCall_rows (t : ℝ) :
    (ttCall t).1 = Data.ttSpectra.map fun r => ((r.1 : ℝ) / 10 ^ 14 * 1000, ttAt r.2 t) := by
  have e : (ttCall t).1 = List.zip ttEnergy (ttInterpolate (clip 1 20 t)) := by
    unfold ttCall
    split_ifs with h
    · have hc : clip 1 20 t = t := by unfold clip; rw [max_eq_left h.1.le, min_eq_left h.2.le]
      rw [hc]
    · rfl
  rw [e]
  unfold ttInterpolate ttIntensities ttEnergy
  rw [List.map_map, List.zip_map']
  rfl

theorem ttAt_continuous (r : Nat × List Nat) (hr : r ∈ Data.ttSpectra) : Continuous (ttAt r.2) := by
  unfold ttAt
  refine (npInterp_continuous _ (ttTable r.2 (tt_rows r hr).1).2.1).comp ?_
  unfold clip
  fun_prop

theorem publishedTT_rows (t : ℝ) :
    (publishedTT t).map (fun p => (p.1, 1 / 10 ^ 92 / 1000 * p.2)) = (ttCall t).1.map (fun p => (1000 * p.1, p.2)) := by
  set t' := max 1 (min t 20) with ht
  have h1 : 1 ≤ t' := le_max_left _ _
  have h2 : t' ≤ 20 := max_le (by norm_num) (min_le_right _ _)
  have hcall : (ttCall t).1 = (ttCall t').1 := by
    rcases le_total t 1 with h | h
    · rw [(C58_clip t).1 h, ht, min_eq_left (h.trans (by norm_num)), max_eq_left h]
    · rcases le_total 20 t with k | k
      · rw [(C58_clip t).2 k, ht, min_eq_right k, max_eq_right (by norm_num)]
      · rw [ht, min_eq_left k, max_eq_right h]
  set j := min 38 ⌊(t' - 1) * (39 / 19)⌋₊ with hj
  have h0 : 0 ≤ (t' - 1) * (39 / 19) := mul_nonneg (by linarith) (by norm_num)
  have hj38 : j ≤ 38 := min_le_left _ _
  have hlo : ttTemp j ≤ t' := by
    have a : (j : ℝ) ≤ (t' - 1) * (39 / 19) := by
      refine le_trans ?_ (Nat.floor_le h0)
      exact_mod_cast min_le_right _ _
    unfold ttTemp
    linarith
  have hhi : t' ≤ ttTemp (j + 1) := by
    unfold ttTemp
    rcases le_total 38 ⌊(t' - 1) * (39 / 19)⌋₊ with h | h
    · rw [show j = 38 from min_eq_left h]
      push_cast
      linarith
    · have := (Nat.lt_floor_add_one ((t' - 1) * (39 / 19))).le
      rw [show j = ⌊(t' - 1) * (39 / 19)⌋₊ from min_eq_right h]
      push_cast
      linarith
  have e := C58_linear j (by omega) t' hlo hhi
  rw [hcall, e]
  unfold publishedTT
  rw [List.map_map, List.map_map]
  refine List.map_congr_left fun r _ => ?_
  simp only [Function.comp_apply, Prod.mk.injEq, true_and]
  rw [← ht, ← hj]
  simp only [ttLinear, ttTemp]
  push_cast
  field_simp
  ring

/-- The T-T distribution handed to OpenMC is the published one. -/
theorem tt_law (f : ℝ → ℝ) (t : ℝ) (method : SpectrumMethod) (d : NeutronDist)
    (hd : neutronEnergySpectrum method (.n .T_T) t = .ok d) :
    energyMean f d = energyMean f (.tabular (publishedTT t)) := by
  obtain ⟨d', hd', h⟩ := C69_TT t method
  rw [hd] at hd'
  obtain rfl := Except.ok.inj hd'
  cases h with
  | normal _ hr _ => exact absurd rfl hr
  | modified _ _ _ hr => exact absurd rfl hr
  | data keV w _ hk _ _ =>
    obtain ⟨c, hc, e, -⟩ := C54_TT t
    rw [show Reaction.TT = Reaction.n .T_T from rfl, hk] at e
    simp only [Except.ok.injEq, Prod.mk.injEq, Option.some.injEq] at e
    rw [← energyMean_weight (c := 1 / 10 ^ 92 / 1000) (by norm_num) f (publishedTT t), publishedTT_rows,
      ← energyMean_weight hc.ne' f ((ttCall t).1.map (fun p => (1000 * p.1, p.2))), e.1, List.map_map, List.map_map]
    rfl

theorem rows_area {ι : Type} (I : List ι) (x p : ι → ℝ) (c : ℝ) (h : c * area (I.map fun i => (x i, p i)) = 1) :
    area (I.map fun i => (1000 * x i, p i)) ≠ 0 := by
  intro h0
  have h1 := area_stretch 1000 (I.map fun i => (x i, p i))
  rw [List.map_map] at h1
  have h2 : (1000 : ℝ) * area (I.map fun i => (x i, p i)) = 0 := by rw [← h1]; exact h0
  rw [show area (I.map fun i => (x i, p i)) = 0 by linarith, mul_zero] at h
  exact zero_ne_one h

theorem tt_continuousOn {Q : Type} [TopologicalSpace Q] [FirstCountableTopology Q] {S : Set Q} (f : Q → ℝ → ℝ)
    (hf : Continuous fun y : Q × ℝ => f y.1 y.2) {t : Q → ℝ} (ht : ContinuousOn t S) :
    ContinuousOn (fun q => energyMean (f q) (.tabular (publishedTT (t q)))) S := by
  have e : ∀ q, energyMean (f q) (.tabular (publishedTT (t q))) = energyMean (f q)
      (.tabular (Data.ttSpectra.map fun r => (1000 * ((r.1 : ℝ) / 10 ^ 14 * 1000), ttAt r.2 (t q)))) := by
    intro q
    rw [← energyMean_weight (c := 1 / 10 ^ 92 / 1000) (by norm_num) (f q) (publishedTT (t q)), publishedTT_rows, ttCall_rows,
      List.map_map]
    rfl
  simp only [e]
  have hrows := ttAt_continuous
  have h0 : ∀ q, area (Data.ttSpectra.map fun r => (1000 * ((r.1 : ℝ) / 10 ^ 14 * 1000), ttAt r.2 (t q))) ≠ 0 := by
    intro q
    obtain ⟨c, hc, -, ha⟩ := C54_TT (t q)
    rw [area_weight, ttCall_rows] at ha
    exact rows_area _ _ _ _ ha
  generalize Data.ttSpectra = rows at h0 hrows ⊢
  exact tabular_continuousOn f hf (fun (r : Nat × List Nat) _ => 1000 * ((r.1 : ℝ) / 10 ^ 14 * 1000))
    (fun (r : Nat × List Nat) q => ttAt r.2 (t q)) rows
    (fun _ _ => continuousOn_const) (fun r hr => (hrows r hr).comp_continuousOn ht) fun q _ => h0 q

/-! ### The modified Gaussian -/

theorem publishedTable_linspace (mean sigma : ℝ) :
    publishedTable mean sigma = ((linspace (mean - 6 * sigma) (mean + 6 * sigma) 1000).map
      (fun e => (e, modifiedGaussian mean sigma e))).map fun p => (1000 * p.1, p.2) := by
  unfold publishedTable linspace
  rw [List.map_map, List.map_map]
  refine List.map_congr_left fun i _ => ?_
  simp only [Function.comp_apply]
  have e : (mean + 6 * sigma - (mean - 6 * sigma)) / (((1000 : ℕ) : ℝ) - 1) = 12 * sigma / 999 := by
    push_cast
    ring
  rw [e]

theorem modified_law (f : ℝ → ℝ) (c mean sigma : ℝ) (hc : 0 < c) :
    energyMean f (.tabular (((linspace (mean - 6 * sigma) (mean + 6 * sigma) 1000).map
      (fun e => (e, c * modifiedGaussian mean sigma e))).map (fun p => (1000 * p.1, p.2)))) =
    energyMean f (.tabular (publishedTable mean sigma)) := by
  rw [← energyMean_weight hc.ne' f (publishedTable mean sigma), publishedTable_linspace]
  rw [List.map_map, List.map_map, List.map_map]
  rfl

theorem published_area (mean sigma : ℝ) (hs : 0 < sigma) (h6 : 6 * sigma < mean) :
    area (publishedTable mean sigma) ≠ 0 := by
  intro h0
  obtain ⟨c, hc, -, ha⟩ := modified_ok mean sigma hs h6
  rw [publishedTable_linspace, area_stretch] at h0
  have h1 := area_weight c ((linspace (mean - 6 * sigma) (mean + 6 * sigma) 1000).map
      (fun e => (e, modifiedGaussian mean sigma e)))
  rw [List.map_map] at h1
  have h2 : area ((linspace (mean - 6 * sigma) (mean + 6 * sigma) 1000).map
      (fun e => (e, modifiedGaussian mean sigma e))) = 0 := by linarith
  rw [h2, mul_zero] at h1
  rw [show (fun e => (e, c * modifiedGaussian mean sigma e)) =
    (fun p : ℝ × ℝ => (p.1, c * p.2)) ∘ fun e => (e, modifiedGaussian mean sigma e) from rfl, h1] at ha
  exact zero_ne_one ha

theorem modifiedGaussian_continuousOn {Q : Type} [TopologicalSpace Q] {S : Set Q} {mean sigma e : Q → ℝ}
    (hm : ContinuousOn mean S) (hs : ContinuousOn sigma S) (he : ContinuousOn e S) (h0 : ∀ q ∈ S, 0 < sigma q)
    (h6 : ∀ q ∈ S, 6 * sigma q < mean q) : ContinuousOn (fun q => modifiedGaussian (mean q) (sigma q) (e q)) S := by
  have hm0 : ∀ q ∈ S, 0 < mean q := fun q hq => by linarith [h0 q hq, h6 q hq]
  have hf : ContinuousOn (fun q => 1 - 3 / 2 * (sigma q ^ 2 / mean q ^ 2)) S :=
    continuousOn_const.sub (continuousOn_const.mul ((hs.pow 2).div (hm.pow 2) fun q hq => (pow_pos (hm0 q hq) 2).ne'))
  have hsq := Real.continuous_sqrt.comp_continuousOn hf
  have hE := hm.mul hsq
  unfold modifiedGaussian
  refine Real.continuous_exp.comp_continuousOn (ContinuousOn.mul (ContinuousOn.div (continuousOn_const.mul hE).neg
    ((continuousOn_const.mul (hm.pow 2)).mul (hsq.sub hf)) ?_) (((Real.continuous_sqrt.comp_continuousOn he).sub
    (Real.continuous_sqrt.comp_continuousOn hE)).pow 2))
  intro q hq
  have hs0 := h0 q hq
  have hmq := hm0 q hq
  have hr : sigma q ^ 2 / mean q ^ 2 < 1 / 36 := by
    rw [div_lt_div_iff₀ (by positivity) (by norm_num)]
    nlinarith [h6 q hq]
  have hr0 : 0 < sigma q ^ 2 / mean q ^ 2 := by positivity
  have hlt : 1 - 3 / 2 * (sigma q ^ 2 / mean q ^ 2) < Real.sqrt (1 - 3 / 2 * (sigma q ^ 2 / mean q ^ 2)) := by
    rw [Real.lt_sqrt (by linarith)]
    nlinarith
  have : 0 < 4 / 3 * mean q ^ 2 * (Real.sqrt (1 - 3 / 2 * (sigma q ^ 2 / mean q ^ 2)) -
      (1 - 3 / 2 * (sigma q ^ 2 / mean q ^ 2))) := mul_pos (by positivity) (by linarith)
  exact this.ne'

theorem publishedTable_continuousOn {Q : Type} [TopologicalSpace Q] [FirstCountableTopology Q] {S : Set Q} (f : Q → ℝ → ℝ)
    (hf : Continuous fun y : Q × ℝ => f y.1 y.2) {mean sigma : Q → ℝ} (hm : ContinuousOn mean S) (hs : ContinuousOn sigma S)
    (h0 : ∀ q ∈ S, 0 < sigma q) (h6 : ∀ q ∈ S, 6 * sigma q < mean q) :
    ContinuousOn (fun q => energyMean (f q) (.tabular (publishedTable (mean q) (sigma q)))) S := by
  have hx : ∀ i : ℕ, ContinuousOn (fun q => mean q - 6 * sigma q + i * (12 * sigma q / 999)) S := fun i =>
    (hm.sub (continuousOn_const.mul hs)).add (continuousOn_const.mul ((continuousOn_const.mul hs).div_const _))
  have ha : ∀ q ∈ S, area (publishedTable (mean q) (sigma q)) ≠ 0 := fun q hq => published_area _ _ (h0 q hq) (h6 q hq)
  unfold publishedTable at ha ⊢
  generalize List.range 1000 = I at ha ⊢
  exact tabular_continuousOn f hf (fun (i : ℕ) q => 1000 * (mean q - 6 * sigma q + i * (12 * sigma q / 999)))
    (fun (i : ℕ) q => modifiedGaussian (mean q) (sigma q) (mean q - 6 * sigma q + i * (12 * sigma q / 999))) I
    (fun i _ => continuousOn_const.mul (hx i)) (fun i _ => modifiedGaussian_continuousOn hm hs (hx i) h0 h6) ha

/-! ### All of them -/

/-- The distribution handed to OpenMC is the published one. -/
theorem law_of (f : ℝ → ℝ) (method : SpectrumMethod) (r : Neutronic) (t : ℝ) (ht : 0 < t) (h40 : t ≤ 40)
    (hm : method ≠ .DATA ∨ r = .T_T) (d : NeutronDist) (hd : neutronEnergySpectrum method (.n r) t = .ok d) :
    energyMean f d = energyMean f (publishedLaw method (.n r) t) := by
  obtain ⟨d', hd', h⟩ := C69_distribution r t ht h40 method (fun e => hm.resolve_left fun k => k e)
  rw [hd] at hd'
  obtain rfl := Except.ok.inj hd'
  by_cases hr : r = .T_T
  · subst hr
    exact tt_law f t method d hd
  cases h with
  | normal hg _ _ =>
    cases r with
    | T_T => exact absurd rfl hr
    | D_T => simp only [publishedLaw, if_pos hg]
    | D_D => simp only [publishedLaw, if_pos hg]
  | data _ _ h => exact absurd h hr
  | modified c keV hg _ hc hk _ _ =>
    rw [hk, modified_law f c _ _ hc]
    cases r with
    | T_T => exact absurd rfl hr
    | D_T => simp only [publishedLaw, if_neg hg]
    | D_D => simp only [publishedLaw, if_neg hg]

attribute [local irreducible] publishedTable in
theorem publishedLaw_continuousOn (f : ℝ → ℝ × ℝ → ℝ) (hf : Continuous fun y : ℝ × ℝ × ℝ => f y.1 y.2) (C : ℝ)
    (hC : ∀ E p, |f E p| ≤ C * (1 + E ^ 2)) (method : SpectrumMethod) (r : Neutronic) :
    ContinuousOn (fun q : ℝ × ℝ × ℝ => energyMean (fun E => f E q.2) (publishedLaw method (.n r) q.1))
      (Set.Ioc 0 40 ×ˢ Set.univ) := by
  have hf' : Continuous fun y : (ℝ × ℝ × ℝ) × ℝ => f y.2 y.1.2 :=
    hf.comp (f := fun y : (ℝ × ℝ × ℝ) × ℝ => (y.2, y.1.2)) (by fun_prop)
  by_cases hr : r = .T_T
  · subst hr
    exact tt_continuousOn (fun q E => f E q.2) hf' continuousOn_fst
  obtain ⟨hm, hs⟩ := ballabio_continuousOn r hr
  have hmaps : Set.MapsTo (fun x : ℝ × ℝ × ℝ => x.1) (Set.Ioc (0 : ℝ) 40 ×ˢ (Set.univ : Set (ℝ × ℝ))) (Set.Ioc 0 40) :=
    fun x hx => hx.1
  have hm' : ContinuousOn (fun q : ℝ × ℝ × ℝ => specMean r q.1) (Set.Ioc (0 : ℝ) 40 ×ˢ (Set.univ : Set (ℝ × ℝ))) :=
    hm.comp continuousOn_fst hmaps
  have hs' : ContinuousOn (fun q : ℝ × ℝ × ℝ => specSigma r q.1) (Set.Ioc (0 : ℝ) 40 ×ˢ (Set.univ : Set (ℝ × ℝ))) :=
    hs.comp continuousOn_fst hmaps
  have h0 : ∀ q ∈ Set.Ioc (0 : ℝ) 40 ×ˢ (Set.univ : Set (ℝ × ℝ)), 0 < specSigma r q.1 := fun q hq =>
    (narrow r hr q.1 hq.1.1 hq.1.2).1
  have h6 : ∀ q ∈ Set.Ioc (0 : ℝ) 40 ×ˢ (Set.univ : Set (ℝ × ℝ)), 6 * specSigma r q.1 < specMean r q.1 := fun q hq => by
    have := narrow r hr q.1 hq.1.1 hq.1.2
    linarith
  by_cases hg : method = .BALLABIO_GAUSSIAN
  · have e : ∀ t, publishedLaw method (.n r) t = .normal (1000 * specMean r t) (1000 * specSigma r t) := by
      intro t
      cases r with
      | T_T => exact absurd rfl hr
      | D_T => simp only [publishedLaw, if_pos hg]
      | D_D => simp only [publishedLaw, if_pos hg]
    simp only [e]
    exact normal_continuousOn (fun q E => f E q.2) hf' C (fun q E => hC E q.2) (continuousOn_const.mul hm')
      (continuousOn_const.mul hs') (fun q hq => mul_pos (by norm_num : (0 : ℝ) < 1000) (h0 q hq))
  · have e : ∀ t, publishedLaw method (.n r) t = .tabular (publishedTable (specMean r t) (specSigma r t)) := by
      intro t
      cases r with
      | T_T => exact absurd rfl hr
      | D_T => simp only [publishedLaw, if_neg hg]
      | D_D => simp only [publishedLaw, if_neg hg]
    simp only [e]
    exact publishedTable_continuousOn (fun (q : ℝ × ℝ × ℝ) E => f E q.2) hf' (mean := fun q => specMean r q.1)
      (sigma := fun q => specSigma r q.1) hm' hs' h0 h6

end
end TNS
