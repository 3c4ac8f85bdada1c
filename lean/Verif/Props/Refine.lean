import Verif.Props.Workflow
import Verif.Props.Green
import Verif.Props.FausserAxis
import Verif.Spec.Refine
import Mathlib.Analysis.SpecialFunctions.Pow.Continuity
import Mathlib.Analysis.SpecialFunctions.Pow.Asymptotics
import Mathlib.Analysis.SpecialFunctions.Exp
/-
C71: with the package's own physics, refining the grid gives the volume integrals.
-/

set_option autoImplicit false

namespace TNS
open Spec Filter Topology MeasureTheory
noncomputable section

/-! ## Reactivities are continuous in the temperature -/

section boschHale
variable (BG M C1 C2 C3 C4 C5 C6 C7 : ℝ)

/-- `T / theta` of Bosch and Hale. -/
def bhRatio (C2 C3 C4 C5 C6 C7 T : ℝ) : ℝ :=
  1 - (C2 * T + C4 * T ^ 2 + C6 * T ^ 3) / (1 + C3 * T + C5 * T ^ 2 + C7 * T ^ 3)

/-- `xi` of Bosch and Hale. -/
def bhXi (BG C2 C3 C4 C5 C6 C7 T : ℝ) : ℝ :=
  (BG ^ 2 / (4 * (T / bhRatio C2 C3 C4 C5 C6 C7 T))) ^ ((1 : ℝ) / 3)

theorem boschHale_rewrite (T : ℝ) (hT : 0 < T) (hB : 0 < BG) (hM : 0 < M)
    (hR : 0 < bhRatio C2 C3 C4 C5 C6 C7 T) :
    boschHale BG M C1 C2 C3 C4 C5 C6 C7 T =
      C1 * (bhRatio C2 C3 C4 C5 C6 C7 T)⁻¹ * Real.sqrt ((bhRatio C2 C3 C4 C5 C6 C7 T)⁻¹) *
        (2 / (BG * Real.sqrt M)) *
        (bhXi BG C2 C3 C4 C5 C6 C7 T ^ 2 * Real.exp (-3 * bhXi BG C2 C3 C4 C5 C6 C7 T)) / 10 ^ 6 := by
  have e : boschHale BG M C1 C2 C3 C4 C5 C6 C7 T =
      C1 * (T / bhRatio C2 C3 C4 C5 C6 C7 T) *
        Real.sqrt (bhXi BG C2 C3 C4 C5 C6 C7 T / (M * T ^ 3)) *
        Real.exp (-3 * bhXi BG C2 C3 C4 C5 C6 C7 T) / 10 ^ 6 := rfl
  have hx3 : bhXi BG C2 C3 C4 C5 C6 C7 T ^ 3 =
      BG ^ 2 / (4 * (T / bhRatio C2 C3 C4 C5 C6 C7 T)) := by
    unfold bhXi
    rw [← Real.rpow_natCast, ← Real.rpow_mul (by positivity)]
    norm_num
  have hx : 0 < bhXi BG C2 C3 C4 C5 C6 C7 T := by unfold bhXi; positivity
  rw [e]
  generalize bhXi BG C2 C3 C4 C5 C6 C7 T = ξ at *
  generalize bhRatio C2 C3 C4 C5 C6 C7 T = R at *
  have hT' : T = BG ^ 2 * R / (4 * ξ ^ 3) := by
    rw [hx3]; field_simp
  have hs : Real.sqrt (ξ / (M * T ^ 3)) = T⁻¹ * (Real.sqrt R⁻¹ * (2 / (BG * Real.sqrt M)) * ξ ^ 2) := by
    rw [show ξ / (M * T ^ 3) = (T⁻¹ * (2 / BG) * ξ ^ 2) ^ 2 * (R⁻¹ / M) by
      have : ξ / (M * T ^ 3) = (T⁻¹) ^ 2 * (ξ / (M * T)) := by field_simp
      rw [this]
      have h2 : ξ / (M * T) = (2 / BG * ξ ^ 2) ^ 2 * (R⁻¹ / M) := by
        conv_lhs => rw [hT']
        field_simp
        ring
      rw [h2]; ring]
    rw [Real.sqrt_mul (by positivity), Real.sqrt_sq (by positivity), Real.sqrt_div (by positivity)]
    field_simp
  rw [hs]
  field_simp

theorem bhRatio_continuousOn (S : Set ℝ)
    (hd : ∀ t ∈ S, 1 + C3 * t + C5 * t ^ 2 + C7 * t ^ 3 ≠ 0) :
    ContinuousOn (bhRatio C2 C3 C4 C5 C6 C7) S := by
  unfold bhRatio
  exact continuousOn_const.sub (ContinuousOn.div (by fun_prop) (by fun_prop) hd)

/-- Bosch and Hale's formula, continued by 0, is continuous on `(-∞, b]` when its denominators do not
vanish there. -/
theorem boschHale_continuousOn (hB : 0 < BG) (hM : 0 < M) (S : Set ℝ)
    (hd : ∀ t ∈ S, 0 < t → 0 < 1 + C3 * t + C5 * t ^ 2 + C7 * t ^ 3)
    (hn : ∀ t ∈ S, 0 < t →
      C2 * t + C4 * t ^ 2 + C6 * t ^ 3 < 1 + C3 * t + C5 * t ^ 2 + C7 * t ^ 3) :
    ContinuousOn (fun t => if t ≤ 0 then 0 else boschHale BG M C1 C2 C3 C4 C5 C6 C7 t) S := by
  have hR : ∀ t ∈ S, 0 < t → 0 < bhRatio C2 C3 C4 C5 C6 C7 t := by
    intro t ht h0
    have := (div_lt_one (hd t ht h0)).2 (hn t ht h0)
    unfold bhRatio; linarith
  intro t ht
  rcases lt_trichotomy t 0 with h | h | h
  · refine ContinuousAt.continuousWithinAt ?_
    have : (fun t : ℝ => if t ≤ 0 then 0 else boschHale BG M C1 C2 C3 C4 C5 C6 C7 t) =ᶠ[𝓝 t]
        fun _ => 0 := by
      filter_upwards [Iio_mem_nhds h] with s hs
      rw [if_pos (le_of_lt hs)]
    exact continuousAt_const.congr this.symm
  · subst h
    -- the limit at 0 from above
    have hR0 : Tendsto (bhRatio C2 C3 C4 C5 C6 C7) (𝓝[>] 0) (𝓝 1) := by
      have hc : ContinuousAt (bhRatio C2 C3 C4 C5 C6 C7) 0 := by
        unfold bhRatio
        refine ContinuousAt.sub continuousAt_const (ContinuousAt.div (by fun_prop) (by fun_prop) ?_)
        norm_num
      have := hc.tendsto
      simp only [bhRatio] at this
      norm_num at this
      exact (this.mono_left nhdsWithin_le_nhds)
    have hxi : Tendsto (bhXi BG C2 C3 C4 C5 C6 C7) (𝓝[>] 0) atTop := by
      have h1 : Tendsto (fun T => BG ^ 2 / (4 * (T / bhRatio C2 C3 C4 C5 C6 C7 T))) (𝓝[>] 0) atTop := by
        have h2 : Tendsto (fun T : ℝ => T⁻¹) (𝓝[>] 0) atTop := tendsto_inv_nhdsGT_zero
        have h3 := (h2.atTop_mul_pos (C := BG ^ 2 / 4 * 1) (by positivity) (hR0.const_mul (BG ^ 2 / 4)))
        refine h3.congr fun T => ?_
        rw [div_mul_eq_mul_div, mul_comm (T⁻¹), ← div_eq_mul_inv, div_div]
        by_cases hb : bhRatio C2 C3 C4 C5 C6 C7 T = 0
        · simp [hb]
        · by_cases hT : T = 0
          · simp [hT]
          · field_simp
      exact (tendsto_rpow_atTop (by norm_num)).comp h1
    have hexp : Tendsto (fun x : ℝ => x ^ 2 * Real.exp (-3 * x)) atTop (𝓝 0) := by
      have h1 : Tendsto (fun x : ℝ => x ^ 2 * Real.exp (-x)) atTop (𝓝 0) :=
        Real.tendsto_pow_mul_exp_neg_atTop_nhds_zero 2
      refine tendsto_of_tendsto_of_tendsto_of_le_of_le' tendsto_const_nhds h1
        (Eventually.of_forall fun x => by positivity) ?_
      filter_upwards [eventually_ge_atTop 0] with x hx
      exact mul_le_mul_of_nonneg_left (Real.exp_le_exp.2 (by linarith)) (by positivity)
    have hlim : Tendsto (fun T => C1 * (bhRatio C2 C3 C4 C5 C6 C7 T)⁻¹ *
        Real.sqrt ((bhRatio C2 C3 C4 C5 C6 C7 T)⁻¹) * (2 / (BG * Real.sqrt M)) *
        (bhXi BG C2 C3 C4 C5 C6 C7 T ^ 2 * Real.exp (-3 * bhXi BG C2 C3 C4 C5 C6 C7 T)) / 10 ^ 6)
        (𝓝[>] 0) (𝓝 0) := by
      have hinv := hR0.inv₀ one_ne_zero
      have := ((((hinv.const_mul C1).mul hinv.sqrt).mul_const (2 / (BG * Real.sqrt M))).mul
        (hexp.comp hxi)).div_const (10 ^ 6)
      simpa using this
    have hright : Tendsto (fun t => if t ≤ 0 then 0 else boschHale BG M C1 C2 C3 C4 C5 C6 C7 t)
        (𝓝[S ∩ Set.Ioi 0] 0) (𝓝 0) := by
      refine (hlim.mono_left (nhdsWithin_mono _ Set.inter_subset_right)).congr' ?_
      filter_upwards [self_mem_nhdsWithin] with T hT
      rw [if_neg (not_le.2 hT.2), boschHale_rewrite BG M C1 C2 C3 C4 C5 C6 C7 T hT.2 hB hM
        (hR T hT.1 hT.2)]
    have hleft : Tendsto (fun t => if t ≤ 0 then 0 else boschHale BG M C1 C2 C3 C4 C5 C6 C7 t)
        (𝓝[S ∩ Set.Iic 0] 0) (𝓝 0) := by
      refine tendsto_const_nhds.congr' ?_
      filter_upwards [self_mem_nhdsWithin] with T hT
      rw [if_pos (Set.mem_Iic.1 hT.2)]
    have hS : S = (S ∩ Set.Iic 0) ∪ (S ∩ Set.Ioi 0) := by
      rw [← Set.inter_union_distrib_left, Set.Iic_union_Ioi, Set.inter_univ]
    unfold ContinuousWithinAt
    rw [hS, nhdsWithin_union]
    simp only [le_refl, if_true]
    exact hleft.sup hright
  · have hev : (fun t : ℝ => if t ≤ 0 then 0 else boschHale BG M C1 C2 C3 C4 C5 C6 C7 t) =ᶠ[𝓝[S] t]
        boschHale BG M C1 C2 C3 C4 C5 C6 C7 := by
      filter_upwards [mem_nhdsWithin_of_mem_nhds (Ioi_mem_nhds h)] with s hs
      rw [if_neg (not_le.2 hs)]
    refine ContinuousWithinAt.congr_of_eventuallyEq ?_ hev (by rw [if_neg (not_le.2 h)])
    refine ContinuousAt.continuousWithinAt ?_
    unfold boschHale
    simp only
    have hd' := (hd t ht h).ne'
    have hR' := hR t ht h
    unfold bhRatio at hR'
    have hth : ContinuousAt (fun T => T / (1 - (C2 * T + C4 * T ^ 2 + C6 * T ^ 3) /
        (1 + C3 * T + C5 * T ^ 2 + C7 * T ^ 3))) t := by
      refine continuousAt_id.div (continuousAt_const.sub (ContinuousAt.div (by fun_prop) (by fun_prop)
        hd')) hR'.ne'
    have hth0 := div_pos h hR'
    have hxi : ContinuousAt (fun T => (BG ^ 2 / (4 * (T / (1 - (C2 * T + C4 * T ^ 2 + C6 * T ^ 3) /
        (1 + C3 * T + C5 * T ^ 2 + C7 * T ^ 3))))) ^ ((1 : ℝ) / 3)) t := by
      refine ContinuousAt.rpow_const (continuousAt_const.div (continuousAt_const.mul hth) ?_)
        (Or.inr (by norm_num))
      exact (mul_pos (by norm_num) hth0).ne'
    refine ContinuousAt.div_const (ContinuousAt.mul (ContinuousAt.mul (continuousAt_const.mul hth) ?_)
      ?_) _
    · refine (hxi.div (by fun_prop) (by positivity)).sqrt
    · exact (continuousAt_const.mul hxi).rexp

end boschHale

theorem maxwell_continuousOn (mu keV : ℝ) (hk : 0 < keV) (sigma : ℝ → ℝ) :
    ContinuousOn (fun t => maxwellAverage mu keV (t * keV) sigma) (Set.Ioi 0) := by
  unfold maxwellAverage
  simp only
  refine ContinuousOn.mul (continuousOn_const.mul ?_) (continuousOn_finset_sum _ fun i _ => ?_)
  · refine ContinuousOn.rpow_const (by fun_prop) fun t ht => Or.inl ?_
    exact (mul_pos ht hk).ne'
  · have : ∀ j : ℕ, ContinuousOn (fun t : ℝ => Real.exp (-(logEnergy j * keV) / (t * keV)))
        (Set.Ioi 0) := fun j => by
      refine ContinuousOn.rexp (ContinuousOn.div (by fun_prop) (by fun_prop) fun t ht => ?_)
      exact (mul_pos ht hk).ne'
    exact continuousOn_const.mul (((continuousOn_const.mul (this i)).add
      (continuousOn_const.mul (this (i + 1)))).div_const _)

/-- **C71**, reactivities: on the temperatures where a method gives a number (including a cold plasma,
for the Bosch-Hale channels), `reactivity` is a continuous function of the temperature. -/
theorem C71_reactivity_continuous (u : SI) (m : Masses ℝ) (h : PhysicalData u m)
    (method : ReactivityMethod) (r : Reaction) :
    ∃ f : ℝ → ℝ, ContinuousOn f {t | goodTemperature method r t} ∧
      ∀ t, goodTemperature method r t → reactivity u m method r [t] = .ok [f t] := by
  refine ⟨thermalReactivity u m method r, ?_, fun t ht => ?_⟩
  · unfold thermalReactivity goodTemperature
    by_cases hc : method ≠ .XS ∧ hasBoschHale r = true
    · simp only [if_pos hc]
      rcases r with (_ | _ | _) | (_ | _)
      · exact boschHale_continuousOn _ _ _ _ _ _ _ _ _ (by norm_num) (by norm_num) _
          (fun t _ h0 => by positivity) (fun t _ h0 => by
            have : 0 < 1 + t * ((7.51886e-2 - 1.51361e-2) + t * ((1.35e-2 - 4.60643e-3) +
              t * (1.366e-5 + 1.0675e-4))) := by norm_num; positivity
            linarith)
      · exact boschHale_continuousOn _ _ _ _ _ _ _ _ _ (by norm_num) (by norm_num) _
          (fun t ht h0 => by
            have h9 : t ≤ 960 := ht rfl
            nlinarith) (fun t ht h0 => by
            have h9 : t ≤ 960 := ht rfl
            nlinarith)
      · simp [hasBoschHale] at hc
      · exact boschHale_continuousOn _ _ _ _ _ _ _ _ _ (by norm_num) (by norm_num) _
          (fun t _ h0 => by positivity) (fun t _ h0 => by
            have h := sq_nonneg (t - 67.6)
            norm_num at h ⊢
            nlinarith)
      · simp [hasBoschHale] at hc
    · simp only [if_neg hc]
      exact maxwell_continuousOn _ _ h.keV _
  · rw [C51_dispatch u m h method r [t] (by simp) (by simpa using ht)]
    rfl

theorem thermalReactivity_continuousOn (u : SI) (m : Masses ℝ) (h : PhysicalData u m)
    (method : ReactivityMethod) (r : Reaction) :
    ContinuousOn (thermalReactivity u m method r) {t | goodTemperature method r t} := by
  obtain ⟨f, hf, he⟩ := C71_reactivity_continuous u m h method r
  refine hf.congr fun t ht => ?_
  have h1 := he t ht
  rw [C51_dispatch u m h method r [t] (by simp) (by simpa using ht)] at h1
  have h2 := Except.ok.inj h1
  simp only [List.map_cons, List.map_nil, List.cons.injEq, and_true] at h2
  exact h2

/-! ## Profiles are continuous -/

theorem Profile.value_clip (p : Profile) (rho : ℝ) : p.value (clip 0 1 rho) = p.value rho := by
  have h : clip 0 1 (clip 0 1 rho) = clip 0 1 rho :=
    clip_of_mem _ (clip_mem rho).1 (clip_mem rho).2
  obtain ⟨k, sc⟩ := p
  cases k <;> simp only [Profile.value, dataValue, parabolicValue, pedestalValue, h]

/-- **C71**, profiles: data profiles from axis to edge, parabolic and pedestal profiles with positive
exponents (and the pedestal strictly between axis and edge) have a value everywhere, which depends
continuously on the radius, whatever their scale. -/
theorem C71_profiles (p : Profile)
    (hk : match p.kind with
      | .data t => SortedTable t ∧ (∃ a, t.head? = some a ∧ a.1 ≤ 0) ∧ (∃ b, t.getLast? = some b ∧ 1 ≤ b.1)
      | .parabolic core alpha beta => 0 < alpha ∧ 0 < beta ∧ 0 ≤ core
      | .pedestal _ _ _ alpha beta rp => 0 < alpha ∧ 0 < beta ∧ 0 < rp ∧ rp < 1) :
    ∃ f : ℝ → ℝ, Continuous f ∧ ∀ rho, p.value rho = .ok (f rho) := by
  obtain ⟨k, sc⟩ := p
  cases k with
  | data t =>
    obtain ⟨hs, ⟨a, ha, h0⟩, b, hb, h1⟩ := hk
    exact C35_continuous t hs a b ha hb h0 h1 sc
  | parabolic core alpha beta =>
    obtain ⟨ha, hb, hc⟩ := hk
    exact ⟨_, continuous_const.mul (C36_parabolic core alpha beta ha hb hc).2.2.2.2, fun _ => rfl⟩
  | pedestal core ped sep alpha beta rp =>
    obtain ⟨ha, hb, h0, h1⟩ := hk
    exact ⟨_, (C37_continuous core ped sep alpha beta rp ha hb h0 h1).mul continuous_const,
      fun _ => rfl⟩

/-! ## The limit -/

section limit
variable {u : SI} {m : Masses ℝ} {method : ReactivityMethod} {st : List Reaction} {tr : Transport}
  {T : ℝ → ℝ} {n : Species → ℝ → ℝ}

theorem good_of_continuous (hc : ContinuousPlasma method st T n) (hv : ProfilesAre tr T n) :
    GoodPlasma method st tr where
  temperature := fun rho => ⟨_, hv.temperature rho, hc.T_good rho⟩
  deuterium := fun rho => ⟨_, hv.deuterium rho, hc.n_nonneg _ rho⟩
  tritium := fun rho => ⟨_, hv.tritium rho, hc.n_nonneg _ rho⟩
  helium3 := fun rho => ⟨_, hv.helium3 rho, hc.n_nonneg _ rho⟩

/-- Local emission rate as a function of the normalised radius. -/
def localRate (u : SI) (m : Masses ℝ) (method : ReactivityMethod) (T : ℝ → ℝ) (n : Species → ℝ → ℝ)
    (r : Reaction) (rho : ℝ) : ℝ :=
  rateDensity (fun sp => n sp rho) (thermalReactivity u m method r (T rho)) r

theorem localRate_continuous (hd : PhysicalData u m) (hc : ContinuousPlasma method st T n)
    (r : Reaction) (hr : r ∈ st) : Continuous (localRate u m method T n r) := by
  have h1 : Continuous fun rho => thermalReactivity u m method r (T rho) := by
    rw [← continuousOn_univ]
    exact (thermalReactivity_continuousOn u m hd method r).comp hc.T_cont.continuousOn
      (fun rho _ => hc.T_good rho r hr)
  unfold localRate rateDensity
  exact (((hc.n_cont _).mul (hc.n_cont _)).mul h1).div_const _

theorem localRate_clip (hv : ProfilesAre tr T n) (r : Reaction) (rho : ℝ) :
    localRate u m method T n r rho = localRate u m method T n r (clip 0 1 rho) := by
  have hT : T (clip 0 1 rho) = T rho := by
    have := hv.temperature (clip 0 1 rho)
    rw [Profile.value_clip, hv.temperature] at this
    exact (Except.ok.inj this).symm
  have hn : ∀ sp, n sp (clip 0 1 rho) = n sp rho := by
    rintro (_ | _ | _)
    · have := hv.deuterium (clip 0 1 rho)
      rw [Profile.value_clip, hv.deuterium] at this
      exact (Except.ok.inj this).symm
    · have := hv.tritium (clip 0 1 rho)
      rw [Profile.value_clip, hv.tritium] at this
      exact (Except.ok.inj this).symm
    · have := hv.helium3 (clip 0 1 rho)
      rw [Profile.value_clip, hv.helium3] at this
      exact (Except.ok.inj this).symm
  unfold localRate
  simp only [hT, hn]

theorem localRate_bounded (hd : PhysicalData u m) (hc : ContinuousPlasma method st T n)
    (hv : ProfilesAre tr T n) (r : Reaction) (hr : r ∈ st) :
    ∃ C, ∀ rho, |localRate u m method T n r rho| ≤ C := by
  obtain ⟨C, hC⟩ := isCompact_Icc.exists_bound_of_continuousOn (s := Set.Icc (0 : ℝ) 1)
    (localRate_continuous hd hc r hr).continuousOn
  refine ⟨C, fun rho => ?_⟩
  rw [localRate_clip hv r rho]
  exact hC _ (clip_mem rho)

theorem bounded_all (hd : PhysicalData u m) (hc : ContinuousPlasma method st T n)
    (hv : ProfilesAre tr T n) :
    ∃ C, ∀ r ∈ st, ∀ rho, |localRate u m method T n r rho| ≤ C := by
  have h : ∀ r, ∃ C, r ∈ st → ∀ rho, |localRate u m method T n r rho| ≤ C := by
    intro r
    by_cases hr : r ∈ st
    · obtain ⟨C, hC⟩ := localRate_bounded hd hc hv r hr
      exact ⟨C, fun _ => hC⟩
    · exact ⟨0, fun h => absurd h hr⟩
  choose C hC using h
  refine ⟨(st.map (fun r => |C r|)).sum, fun r hr rho => ?_⟩
  refine (hC r hr rho).trans ((le_abs_self _).trans ?_)
  exact List.single_le_sum (fun x hx => by
    obtain ⟨y, -, rfl⟩ := List.mem_map.1 hx; exact abs_nonneg _) _ (List.mem_map.2 ⟨r, hr, rfl⟩)

theorem rates_of {c : ℝ} (hc : GoodConstants u m c) (arg : SourceArg)
    (hst : parseSourceType arg = .ok st) (hv : ProfilesAre tr T n)
    (hp : ContinuousPlasma method st T n) (fm : ParamMap) (hfm : Placed fm) (psi : ℝ → ℝ → ℝ)
    (hpsi : ContinuousOn (fun p : ℝ × ℝ => psi p.1 p.2) {p | containsPoint fm.lcfs p = true}) :
    ∃ s : ℝ → Source ℝ,
      (∀ L > 0, makeSource u m c tr (fm.view psi) arg L none method = .ok (s L)) ∧
      (∀ r ∈ st,
        Tendsto (fun L => (s L).numReactions.getD r 0) (𝓝[>] 0)
          (𝓝 (plasmaRate u m method T n psi {p | containsPoint fm.lcfs p = true} r)) ∧
        Tendsto (fun L => (s L).numNeutrons.getD r 0) (𝓝[>] 0)
          (𝓝 (plasmaRate u m method T n psi {p | containsPoint fm.lcfs p = true} r *
            (neutronYield r : ℝ)))) ∧
      Tendsto (fun L => (s L).totalPower (totalEnergy m c)) (𝓝[>] 0)
        (𝓝 (st.map (fun r => plasmaRate u m method T n psi {p | containsPoint fm.lcfs p = true} r *
          totalEnergy m c r)).sum) := by
  have hg := good_of_continuous hp hv
  have hcon := fun (L : ℝ) (hL : 0 < L) => constructs_of hc method arg st hst tr hg fm hfm psi L hL
  have hex : ∀ L : ℝ, ∃ s, 0 < L → makeSource u m c tr (fm.view psi) arg L none method = .ok s := by
    intro L
    by_cases hL : 0 < L
    · obtain ⟨s, hs, -⟩ := hcon L hL
      exact ⟨s, fun _ => hs⟩
    · obtain ⟨s, hs, -⟩ := hcon 1 one_pos
      exact ⟨s, fun h => absurd h hL⟩
  choose s hs using hex
  have hR : Realises ⟨T, n, thermalReactivity u m method⟩ (reactivity u m method) tr.view (fm.view psi)
      st :=
    { temperature := fun p _ => hv.temperature _
      deuterium := fun p _ => hv.deuterium _
      tritium := fun p _ => hv.tritium _
      helium3 := fun p _ => hv.helium3 _
      sv := fun r hr ts hne hts => C51_dispatch u m hc.data method r ts hne fun t ht => by
        obtain ⟨p, -, rfl⟩ := hts t ht
        exact hp.T_good _ r hr }
  obtain ⟨C, hC⟩ := bounded_all hc.data hp hv
  have hcont : ∀ r ∈ st, ContinuousOn (emissivity ⟨T, n, thermalReactivity u m method⟩
      (fm.view psi).psiNorm r) (interior {p | (fm.view psi).inside p = true}) := by
    intro r hr
    exact (localRate_continuous hc.data hp r hr).comp_continuousOn (hpsi.mono interior_subset)
  have hbd : ∀ r ∈ st, ∀ p, (fm.view psi).inside p = true →
      |emissivity ⟨T, n, thermalReactivity u m method⟩ (fm.view psi).psiNorm r p| ≤ C :=
    fun r hr p _ => hC r hr _
  refine ⟨s, hs, fun r hr => ?_, ?_⟩
  · exact C17_rates (totalEnergy m c) (reactivity u m method) tr.view (fm.view psi) _ arg st hst hR
      (C65_within_box fm.lcfs) (C65_null_boundary fm.lcfs) s hs r hr C (hbd r hr) (hcont r hr)
  · exact C17_power (totalEnergy m c) (reactivity u m method) tr.view (fm.view psi) _ arg st hst hR
      (C65_within_box fm.lcfs) (C65_null_boundary fm.lcfs) s hs C hbd hcont

/-- **C71**, rates: with the package's own reactivities and continuous profiles, on any accepted Fausser
plasma with any continuous interpolated flux, shrinking the cells makes the reaction rate of every channel
tend to the volume integral of the local rate, the neutron rate to its yield times that, and the fusion
power to the sum of the channel energies times those integrals. -/
theorem C71_rates {c : ℝ} (hc : GoodConstants u m c) (arg : SourceArg)
    (hst : parseSourceType arg = .ok st) (hv : ProfilesAre tr T n)
    (hp : ContinuousPlasma method st T n) (fm : ParamMap) (hfm : PlasmaMap fm) (psi : ℝ → ℝ → ℝ)
    (hpsi : ContinuousOn (fun p : ℝ × ℝ => psi p.1 p.2) {p | containsPoint fm.lcfs p = true}) :
    ∃ s : ℝ → Source ℝ,
      (∀ L > 0, makeSource u m c tr (fm.view psi) arg L none method = .ok (s L)) ∧
      (∀ r ∈ st,
        Tendsto (fun L => (s L).numReactions.getD r 0) (𝓝[>] 0)
          (𝓝 (plasmaRate u m method T n psi {p | containsPoint fm.lcfs p = true} r)) ∧
        Tendsto (fun L => (s L).numNeutrons.getD r 0) (𝓝[>] 0)
          (𝓝 (plasmaRate u m method T n psi {p | containsPoint fm.lcfs p = true} r *
            (neutronYield r : ℝ)))) ∧
      Tendsto (fun L => (s L).totalPower (totalEnergy m c)) (𝓝[>] 0)
        (𝓝 (st.map (fun r => plasmaRate u m method T n psi {p | containsPoint fm.lcfs p = true} r *
          totalEnergy m c r)).sum) :=
  rates_of hc arg hst hv hp fm (plasmaMap_data hfm) psi hpsi

theorem plasmaMap_neighbourhood {fm : ParamMap} (h : PlasmaMap fm) :
    ∃ ε > 0, ∀ x z : ℝ, |x - fm.oPoint.x| < ε → fm.oPoint.z - ε < z → z ≤ fm.oPoint.z →
      containsPoint fm.lcfs (x, z) = true := by
  obtain ⟨p, r0, z0, aspect, kappa, delta, shift, sq, l, rho, n, conv, hp, hl, hn, hm⟩ := h
  have hrho : ∃ r ∈ rho, 0 < r := by
    by_contra hno
    push Not at hno
    have he : rho.filter (fun r => decide (r > 0)) = [] := by
      rw [List.filter_eq_nil_iff]
      intro a ha
      simpa using hno a ha
    obtain ⟨pts, hpts, -⟩ := C42_closed p l 1 n (by omega)
    simp [fromParameterisation, he, hpts, Bind.bind, Except.bind, Pure.pure, Except.pure] at hm
  obtain ⟨m, hm', hs, ho, -⟩ := C48_labels p l rho n (by omega) hrho conv
  rw [hm] at hm'
  cases hm'
  rw [lcfs_fausser p _ _ _ _ _ _ _ l hp hl] at hs
  rw [ho]
  exact C66_axis_neighbourhood _ _ _ _ _ _ _ l hl n hn _ hs

theorem localRate_nonneg (hd : PhysicalData u m) (hc : ContinuousPlasma method st T n) (r : Reaction)
    (hr : r ∈ st) (rho : ℝ) : 0 ≤ localRate u m method T n r rho := by
  have h1 : 0 ≤ thermalReactivity u m method r (T rho) := by
    have e := C51_dispatch u m hd method r [T rho] (by simp) (by simpa using hc.T_good rho r hr)
    exact (C70_reactivity_nonneg u m hd method r _ _ e).2 _ (by simp [thermalReactivity])
  unfold localRate rateDensity
  refine div_nonneg (mul_nonneg (mul_nonneg (hc.n_nonneg _ _) (hc.n_nonneg _ _)) h1) ?_
  split_ifs <;> norm_num

theorem localRate_pos (hd : PhysicalData u m) (hc : ContinuousPlasma method st T n)
    (hv : ProfilesAre tr T n) (r : Reaction) (hr : r ∈ st) (rho : ℝ) (hb : Burns tr r rho) :
    0 < localRate u m method T n r rho := by
  have h1 : 0 < thermalReactivity u m method r (T rho) :=
    thermal_nonneg_of_good u m hd method r _ (hb.temperature _ (hv.temperature rho))
      (hc.T_good rho r hr)
  have hn : ∀ sp, ((reactants r).1 = sp ∨ (reactants r).2 = sp) → 0 < n sp rho := by
    rintro (_ | _ | _) h
    · exact hb.deuterium _ (hv.deuterium rho) h
    · exact hb.tritium _ (hv.tritium rho) h
    · exact hb.helium3 _ (hv.helium3 rho) h
  unfold localRate rateDensity
  refine div_pos (mul_pos (mul_pos (hn _ (Or.inl rfl)) (hn _ (Or.inr rfl))) h1) ?_
  split_ifs <;> norm_num

theorem region_ae (pts : List (ℝ × ℝ)) :
    interior {p | containsPoint pts p = true} =ᵐ[volume] {p | containsPoint pts p = true} := by
  refine (ae_eq_set).2 ⟨?_, ?_⟩
  · rw [Set.sdiff_eq_empty.2 interior_subset, measure_empty]
  · refine measure_mono_null ?_ (C65_null_boundary pts)
    intro x hx
    exact ⟨subset_closure hx.1, hx.2⟩

theorem region_finite (pts : List (ℝ × ℝ)) : volume {p | containsPoint pts p = true} ≠ ⊤ := by
  refine ne_top_of_le_ne_top ?_ (measure_mono (t := Set.Icc (npMin (pts.map Prod.fst))
    (npMax (pts.map Prod.fst)) ×ˢ Set.Icc (npMin (pts.map Prod.snd)) (npMax (pts.map Prod.snd))) ?_)
  · rw [Measure.volume_eq_prod, Measure.prod_prod, Real.volume_Icc, Real.volume_Icc]
    exact (ENNReal.mul_lt_top ENNReal.ofReal_lt_top ENNReal.ofReal_lt_top).ne
  · intro p hp
    obtain ⟨⟨a, ha, ha'⟩, ⟨b, hb, hb'⟩, ⟨c, hc1, hc'⟩, ⟨d, hd, hd'⟩⟩ := C65_within_box pts p hp
    exact ⟨⟨(npMin_le _ a ha).trans ha', hb'.trans (le_npMax _ b hb)⟩,
      (npMin_le _ c hc1).trans hc', hd'.trans (le_npMax _ d hd)⟩

theorem plasma_integrable (hd : PhysicalData u m) (hv : ProfilesAre tr T n)
    (hp : ContinuousPlasma method st T n) (fm : ParamMap) (psi : ℝ → ℝ → ℝ)
    (hpsi : ContinuousOn (fun p : ℝ × ℝ => psi p.1 p.2) {p | containsPoint fm.lcfs p = true})
    (r : Reaction) (hr : r ∈ st) :
    IntegrableOn (fun p : ℝ × ℝ => localRate u m method T n r (psi p.1 p.2) * (2 * Real.pi * p.1))
      {p | containsPoint fm.lcfs p = true} := by
  obtain ⟨C, hC⟩ := localRate_bounded hd hp hv r hr
  have hcont : ContinuousOn (fun p : ℝ × ℝ => localRate u m method T n r (psi p.1 p.2) *
      (2 * Real.pi * p.1)) {p | containsPoint fm.lcfs p = true} :=
    ((localRate_continuous hd hp r hr).comp_continuousOn hpsi).mul (by fun_prop)
  refine (integrableOn_congr_set_ae (region_ae fm.lcfs)).1 ?_
  refine IntegrableOn.of_bound (C := C * (2 * Real.pi *
      max |npMin (fm.lcfs.map Prod.fst)| |npMax (fm.lcfs.map Prod.fst)|)) ?_ ?_ ?_
  · rw [measure_congr (region_ae fm.lcfs)]
    exact lt_top_iff_ne_top.2 (region_finite fm.lcfs)
  · exact (hcont.mono interior_subset).aestronglyMeasurable isOpen_interior.measurableSet
  · refine (ae_restrict_iff' isOpen_interior.measurableSet).2 (Eventually.of_forall fun p hpi => ?_)
    obtain ⟨⟨a, ha, ha'⟩, ⟨b, hb, hb'⟩, _⟩ := C65_within_box fm.lcfs p
      (interior_subset (s := {p | containsPoint fm.lcfs p = true}) hpi)
    rw [Real.norm_eq_abs, abs_mul, abs_mul, abs_of_pos Real.two_pi_pos]
    refine mul_le_mul (hC _) ?_ (by positivity) ((abs_nonneg _).trans (hC 0))
    refine mul_le_mul_of_nonneg_left ?_ Real.two_pi_pos.le
    exact abs_le_max_abs_abs ((npMin_le _ a ha).trans ha') (hb'.trans (le_npMax _ b hb))

theorem region_nullMeasurable (pts : List (ℝ × ℝ)) :
    NullMeasurableSet {p | containsPoint pts p = true} volume :=
  isOpen_interior.measurableSet.nullMeasurableSet.congr (region_ae pts)

/-- Plasma at positive radius, with room around the magnetic axis. -/
def Roomy (fm : ParamMap) : Prop :=
  Placed fm ∧ (∀ v ∈ fm.lcfs, 0 < v.1) ∧
    ∃ ε > 0, ∀ x z : ℝ, |x - fm.oPoint.x| < ε → fm.oPoint.z - ε < z → z ≤ fm.oPoint.z →
      containsPoint fm.lcfs (x, z) = true

theorem plasmaMap_vertices {fm : ParamMap} (h : PlasmaMap fm) : ∀ v ∈ fm.lcfs, 0 < v.1 := by
  obtain ⟨p, r0, z0, aspect, kappa, delta, shift, sq, l, rho, n, conv, hp, hl, hn, hm⟩ := h
  have hrho : ∃ r ∈ rho, 0 < r := by
    by_contra hno
    push Not at hno
    have he : rho.filter (fun r => decide (r > 0)) = [] := by
      rw [List.filter_eq_nil_iff]
      intro a ha
      simpa using hno a ha
    obtain ⟨pts, hpts, -⟩ := C42_closed p l 1 n (by omega)
    simp [fromParameterisation, he, hpts, Bind.bind, Except.bind, Pure.pure, Except.pure] at hm
  obtain ⟨m, hm', hs, ho, -⟩ := C48_labels p l rho n (by omega) hrho conv
  rw [hm] at hm'
  cases hm'
  rw [lcfs_fausser p _ _ _ _ _ _ _ l hp hl] at hs
  have hbox := C40_box _ _ _ _ _ _ _ l hl 1 (by norm_num) (le_refl _) n _ hs
  exact fun v hv => (hbox v hv).1

theorem plasmaMap_roomy {fm : ParamMap} (h : PlasmaMap fm) : Roomy fm :=
  ⟨plasmaMap_data h, plasmaMap_vertices h, plasmaMap_neighbourhood h⟩

theorem plasmaRate_nonneg (hd : PhysicalData u m)
    (hp : ContinuousPlasma method st T n) (fm : ParamMap) (hfm : Roomy fm) (psi : ℝ → ℝ → ℝ)
    (r : Reaction) (hr : r ∈ st) :
    0 ≤ plasmaRate u m method T n psi {p | containsPoint fm.lcfs p = true} r := by
  unfold plasmaRate
  refine integral_nonneg_of_ae ((ae_restrict_iff'₀ (region_nullMeasurable fm.lcfs)).2
    (Eventually.of_forall fun p hpi => ?_))
  have hx := hfm.1.1 p hpi
  exact mul_nonneg (localRate_nonneg hd hp r hr _) (by positivity)

/-- A fuel that burns on the magnetic axis has a positive reaction rate. -/
theorem plasmaRate_pos (hd : PhysicalData u m) (hv : ProfilesAre tr T n)
    (hp : ContinuousPlasma method st T n) (fm : ParamMap) (hfm : Roomy fm) (psi : ℝ → ℝ → ℝ)
    (hpsi : ContinuousOn (fun p : ℝ × ℝ => psi p.1 p.2) {p | containsPoint fm.lcfs p = true})
    (r : Reaction) (hr : r ∈ st) (hb : Burns tr r (psi fm.oPoint.x fm.oPoint.z)) :
    0 < plasmaRate u m method T n psi {p | containsPoint fm.lcfs p = true} r := by
  obtain ⟨⟨hx, hax⟩, -, ε, hε, hnb⟩ := hfm
  set f := fun p : ℝ × ℝ => localRate u m method T n r (psi p.1 p.2) * (2 * Real.pi * p.1) with hf
  have hcont : ContinuousOn f {p | containsPoint fm.lcfs p = true} :=
    ((localRate_continuous hd hp r hr).comp_continuousOn hpsi).mul (by fun_prop)
  have hint := plasma_integrable hd hv hp fm psi hpsi r hr
  have hfax : 0 < f (fm.oPoint.x, fm.oPoint.z) :=
    mul_pos (localRate_pos hd hp hv r hr _ hb) (mul_pos Real.two_pi_pos (hx _ hax))
  have hev := (hcont (fm.oPoint.x, fm.oPoint.z) hax).eventually_const_lt hfax
  rw [eventually_nhdsWithin_iff, Metric.eventually_nhds_iff] at hev
  obtain ⟨δ, hδ, hev⟩ := hev
  -- a rectangle below the axis on which the integrand is positive
  set e := min ε δ with he
  have he0 : 0 < e := lt_min hε hδ
  set U : Set (ℝ × ℝ) := Set.Ioo (fm.oPoint.x - e) (fm.oPoint.x + e) ×ˢ
    Set.Ioo (fm.oPoint.z - e) fm.oPoint.z with hU
  have hUin : U ⊆ {p | containsPoint fm.lcfs p = true} := by
    rintro ⟨x, z⟩ ⟨h1, h2⟩
    refine hnb x z ?_ ?_ h2.2.le
    · rw [abs_lt]; constructor <;> linarith [h1.1, h1.2, min_le_left ε δ]
    · linarith [h2.1, min_le_left ε δ]
  have hUpos : ∀ p ∈ U, 0 < f p := by
    rintro ⟨x, z⟩ hp'
    have hin := hUin hp'
    obtain ⟨h1, h2⟩ := hp'
    refine hev ?_ hin
    rw [Prod.dist_eq, max_lt_iff, Real.dist_eq, Real.dist_eq, abs_lt, abs_lt]
    simp only [Set.mem_Ioo] at h1 h2
    have := min_le_right ε δ
    refine ⟨⟨by linarith, by linarith⟩, ⟨by linarith, by linarith⟩⟩
  have hvol : 0 < volume U := by
    rw [hU, Measure.volume_eq_prod, Measure.prod_prod, Real.volume_Ioo, Real.volume_Ioo]
    refine ENNReal.mul_pos ?_ ?_ <;> simp [he0]
  have hnn : 0 ≤ᵐ[volume.restrict {p | containsPoint fm.lcfs p = true}] f := by
    refine (ae_restrict_iff'₀ (region_nullMeasurable fm.lcfs)).2 (Eventually.of_forall fun p hpi => ?_)
    have hx := hx p hpi
    exact mul_nonneg (localRate_nonneg hd hp r hr _) (by positivity)
  have : 0 < ∫ p in {p | containsPoint fm.lcfs p = true}, f p := by
    rw [integral_pos_iff_support_of_nonneg_ae hnn hint]
    refine lt_of_lt_of_le ?_ (measure_mono (fun p hp' => (hUpos p hp').ne' : U ⊆ Function.support f))
    have hUm : MeasurableSet U := measurableSet_Ioo.prod measurableSet_Ioo
    rw [Measure.restrict_apply hUm, Set.inter_eq_left.2 hUin]
    exact hvol
  exact this

theorem normalised_of {c : ℝ} (hc : GoodConstants u m c) (arg : SourceArg)
    (hst : parseSourceType arg = .ok st) (hv : ProfilesAre tr T n)
    (hp : ContinuousPlasma method st T n) (fm : ParamMap) (hfm : Roomy fm) (psi : ℝ → ℝ → ℝ)
    (hpsi : ContinuousOn (fun p : ℝ × ℝ => psi p.1 p.2) {p | containsPoint fm.lcfs p = true})
    (r0 : Reaction) (hr0 : r0 ∈ st) (hb : Burns tr r0 (psi fm.oPoint.x fm.oPoint.z)) (P : ℝ)
    (hP : 0 < P) :
    ∃ (s : ℝ → Source ℝ) (W : ℝ), 0 < W ∧
      W = (st.map (fun r => plasmaRate u m method T n psi {p | containsPoint fm.lcfs p = true} r *
        totalEnergy m c r)).sum ∧
      (∀ L > 0, makeSource u m c tr (fm.view psi) arg L (some P) method = .ok (s L)) ∧
      ∀ r ∈ st,
        Tendsto (fun L => (s L).numReactions.getD r 0) (𝓝[>] 0)
          (𝓝 (P / W * plasmaRate u m method T n psi {p | containsPoint fm.lcfs p = true} r)) ∧
        Tendsto (fun L => (s L).numNeutrons.getD r 0) (𝓝[>] 0)
          (𝓝 (P / W * plasmaRate u m method T n psi {p | containsPoint fm.lcfs p = true} r *
            (neutronYield r : ℝ))) := by
  obtain ⟨s0, hs0, hrates, hpow⟩ := rates_of hc arg hst hv hp fm hfm.1 psi hpsi
  have hg := good_of_continuous hp hv
  have hpw := fun (L : ℝ) (hL : 0 < L) =>
    power_of hc method arg st hst tr hg fm hfm.1 psi L hL r0 hr0 hb P hP
  have hQ : ∀ r, 0 < totalEnergy m c r := fun r => (C11_sign m c hc.c_pos r).2 (hc.exothermic r)
  set W := (st.map (fun r => plasmaRate u m method T n psi {p | containsPoint fm.lcfs p = true} r *
    totalEnergy m c r)).sum with hW
  have hWpos : 0 < W := by
    have h1 := mul_pos (plasmaRate_pos hc.data hv hp fm hfm psi hpsi r0 hr0 hb) (hQ r0)
    refine h1.trans_le (List.single_le_sum (fun x hx => ?_) _ (List.mem_map.2 ⟨r0, hr0, rfl⟩))
    obtain ⟨r, hr, rfl⟩ := List.mem_map.1 hx
    exact mul_nonneg (plasmaRate_nonneg hc.data hp fm hfm psi r hr) (hQ r).le
  have hex : ∀ L : ℝ, ∃ s, 0 < L → makeSource u m c tr (fm.view psi) arg L (some P) method = .ok s ∧
      ∀ r ∈ st, s.numReactions.getD r 0 = P / (s0 L).totalPower (totalEnergy m c) *
          (s0 L).numReactions.getD r 0 ∧
        s.numNeutrons.getD r 0 = P / (s0 L).totalPower (totalEnergy m c) *
          (s0 L).numNeutrons.getD r 0 := by
    intro L
    by_cases hL : 0 < L
    · obtain ⟨s0', s, k, h0, hs, hphys, htot, hty, -, -, -, -, hk, hstr, -⟩ := hpw L hL
      have e0 := hs0 L hL
      rw [h0] at e0
      cases e0
      refine ⟨s, fun _ => ⟨hs, ?_⟩⟩
      have hb0 := C04_bookkeeping (Reachable.constructed (hs0 L hL))
      have hb1 := C04_bookkeeping (Reachable.constructed hs)
      have hty0 : (s0 L).sourceType = st := by
        obtain ⟨_, _, _, _, _, p0, _⟩ := Source.init_none (hs0 L hL)
        rw [hst] at p0
        exact (Except.ok.inj p0).symm
      have hnum : ∀ r ∈ st, s.numReactions.getD r 0 = k * (s0 L).numReactions.getD r 0 ∧
          s.numNeutrons.getD r 0 = k * (s0 L).numNeutrons.getD r 0 := by
        intro r hr
        obtain ⟨c0, a1, a2, a3⟩ := hb0.2.2.2.2.1 r (by rw [hty0]; exact hr)
        obtain ⟨c1, b1, b2, b3⟩ := hb1.2.2.2.2.1 r (by rw [hty]; exact hr)
        rw [hstr r, a1] at b1
        simp only [Option.map_some, Option.some.injEq] at b1
        subst b1
        have hsum : (c0.map (fun v => v * k)).sum = k * c0.sum := by
          rw [List.sum_map_mul_right]; simp [mul_comm]
        simp only [Dict.getD, a2, a3, b2, b3, Option.getD_some, hsum]
        exact ⟨trivial, by ring⟩
      have hkP : k = P / (s0 L).totalPower (totalEnergy m c) := by
        have h1 := C11_power (Reachable.constructed hs)
        have h2 := C11_power (Reachable.constructed (hs0 L hL))
        rw [hty0] at h2
        rw [hty] at h1
        have h3 : s.totalPower (totalEnergy m c) = k * (s0 L).totalPower (totalEnergy m c) := by
          rw [h1, h2, ← List.sum_map_mul_left]
          refine congrArg List.sum (List.map_congr_left fun r hr => ?_)
          rw [(hnum r hr).1]; ring
        rw [htot] at h3
        have hne : (s0 L).totalPower (totalEnergy m c) ≠ 0 := by
          intro h; rw [h, mul_zero] at h3; exact hP.ne' h3
        rw [h3]; field_simp
      intro r hr
      rw [← hkP]
      exact hnum r hr
    · exact ⟨s0 1, fun h => absurd h hL⟩
  choose s hs using hex
  refine ⟨s, W, hWpos, rfl, fun L hL => (hs L hL).1, fun r hr => ?_⟩
  have hfac : Tendsto (fun L => P / (s0 L).totalPower (totalEnergy m c)) (𝓝[>] 0) (𝓝 (P / W)) :=
    tendsto_const_nhds.div hpow hWpos.ne'
  constructor
  · refine (hfac.mul (hrates r hr).1).congr' ?_
    filter_upwards [self_mem_nhdsWithin] with L hL
    exact ((hs L hL).2 r hr).1.symm
  · rw [mul_assoc]
    refine (hfac.mul (hrates r hr).2).congr' ?_
    filter_upwards [self_mem_nhdsWithin] with L hL
    exact ((hs L hL).2 r hr).2.symm

/-- **C71**, requested power: if the fuel burns on the axis, the source normalised to the power `P` tends to
the plasma whose reaction rates are in the ratio of the volume integrals and add up to the power `P`. -/
theorem C71_normalised {c : ℝ} (hc : GoodConstants u m c) (arg : SourceArg)
    (hst : parseSourceType arg = .ok st) (hv : ProfilesAre tr T n)
    (hp : ContinuousPlasma method st T n) (fm : ParamMap) (hfm : PlasmaMap fm) (psi : ℝ → ℝ → ℝ)
    (hpsi : ContinuousOn (fun p : ℝ × ℝ => psi p.1 p.2) {p | containsPoint fm.lcfs p = true})
    (r0 : Reaction) (hr0 : r0 ∈ st) (hb : Burns tr r0 (psi fm.oPoint.x fm.oPoint.z)) (P : ℝ)
    (hP : 0 < P) :
    ∃ (s : ℝ → Source ℝ) (W : ℝ), 0 < W ∧
      W = (st.map (fun r => plasmaRate u m method T n psi {p | containsPoint fm.lcfs p = true} r *
        totalEnergy m c r)).sum ∧
      (∀ L > 0, makeSource u m c tr (fm.view psi) arg L (some P) method = .ok (s L)) ∧
      ∀ r ∈ st,
        Tendsto (fun L => (s L).numReactions.getD r 0) (𝓝[>] 0)
          (𝓝 (P / W * plasmaRate u m method T n psi {p | containsPoint fm.lcfs p = true} r)) ∧
        Tendsto (fun L => (s L).numNeutrons.getD r 0) (𝓝[>] 0)
          (𝓝 (P / W * plasmaRate u m method T n psi {p | containsPoint fm.lcfs p = true} r *
            (neutronYield r : ℝ))) :=
  normalised_of hc arg hst hv hp fm (plasmaMap_roomy hfm) psi hpsi r0 hr0 hb P hP

end limit

/-! ### The hypotheses are met -/

namespace Ex

/-- Pedestal profiles: 25 keV in the core, 50:50 D-T fuel. -/
def plasmaT (rho : ℝ) : ℝ := pedestalValue 25 5 0.1 1.5 2 0.9 rho * 1
def plasmaN : Species → ℝ → ℝ
  | .deuterium, rho => pedestalValue 1e20 8e19 3e19 1 2 0.9 rho * 0.5
  | .tritium, rho => pedestalValue 1e20 8e19 3e19 1 2 0.9 rho * 0.5
  | .helium3, rho => pedestalValue 1e20 8e19 3e19 1 2 0.9 rho * 0
def plasmaTr : Transport :=
  { deuterium := ⟨.pedestal 1e20 8e19 3e19 1 2 0.9, 0.5⟩
    tritium := ⟨.pedestal 1e20 8e19 3e19 1 2 0.9, 0.5⟩
    helium3 := ⟨.pedestal 1e20 8e19 3e19 1 2 0.9, 0⟩
    temperature := ⟨.pedestal 25 5 0.1 1.5 2 0.9, 1⟩ }

theorem plasma_values : ProfilesAre plasmaTr plasmaT plasmaN where
  temperature := fun _ => rfl
  deuterium := fun _ => rfl
  tritium := fun _ => rfl
  helium3 := fun _ => rfl

theorem plasma_continuous : ContinuousPlasma .AUTO [.DT, .DDn, .DDp, .TT] plasmaT plasmaN where
  T_cont := (C37_continuous 25 5 0.1 1.5 2 0.9 (by norm_num) (by norm_num) (by norm_num)
    (by norm_num)).mul continuous_const
  n_cont := by
    have h := C37_continuous 1e20 8e19 3e19 1 2 0.9 (by norm_num) (by norm_num) (by norm_num)
      (by norm_num)
    rintro (_ | _ | _) <;> exact h.mul continuous_const
  n_nonneg := by
    intro sp rho
    obtain ⟨h, -⟩ := C37_bounds 1e20 8e19 3e19 1 2 0.9 (by norm_num) (by norm_num) (by norm_num)
      (by norm_num) (by norm_num) (by norm_num) rho
    have : (0 : ℝ) ≤ pedestalValue 1e20 8e19 3e19 1 2 0.9 rho := le_trans (by norm_num) h
    rcases sp with _ | _ | _ <;> simp only [plasmaN] <;> positivity
  T_good := by
    intro rho r _
    obtain ⟨h1, h2⟩ := C37_bounds 25 5 0.1 1.5 2 0.9 (by norm_num) (by norm_num) (by norm_num)
      (by norm_num) (by norm_num) (by norm_num) rho
    unfold goodTemperature plasmaT
    split_ifs
    · intro _; linarith
    · norm_num at h1 ⊢; linarith

theorem plasma_burns (rho : ℝ) : Burns plasmaTr .DT rho := by
  obtain ⟨h1, -⟩ := C37_bounds 25 5 0.1 1.5 2 0.9 (by norm_num) (by norm_num) (by norm_num)
      (by norm_num) (by norm_num) (by norm_num) rho
  obtain ⟨h2, -⟩ := C37_bounds 1e20 8e19 3e19 1 2 0.9 (by norm_num) (by norm_num) (by norm_num)
      (by norm_num) (by norm_num) (by norm_num) rho
  refine ⟨fun T e => ?_, fun n e _ => ?_, fun n e _ => ?_, fun n _ e => ?_⟩
  · rw [plasma_values.temperature] at e; cases e
    unfold plasmaT; norm_num at h1 ⊢; linarith
  · rw [plasma_values.deuterium] at e; cases e
    simp only [plasmaN]; norm_num at h2 ⊢; linarith
  · rw [plasma_values.tritium] at e; cases e
    simp only [plasmaN]; norm_num at h2 ⊢; linarith
  · simp [reactants, Reaction.DT] at e

/-- A 9 m plasma at 2 GW: the rates have a limit, for any continuous flux. -/
example : ∃ fm : ParamMap, PlasmaMap fm ∧ ∀ psi : ℝ → ℝ → ℝ,
    Continuous (fun p : ℝ × ℝ => psi p.1 p.2) → ∃ (s : ℝ → Source ℝ) (I : Reaction → ℝ),
    (∀ L > 0, makeSource si massesR 1.4924180856e-10 plasmaTr (fm.view psi) .none L (some 2e9) .AUTO =
      .ok (s L)) ∧
    ∀ r ∈ [.DT, .DDn, .DDp, .TT], Tendsto (fun L => (s L).numReactions.getD r 0) (𝓝[>] 0) (𝓝 (I r)) := by
  obtain ⟨l, hl⟩ := (C39_accepted (9 : ℝ) 0 3 1.7 0.3 0.5 0).2 (by norm_num [abs_of_pos])
  obtain ⟨fm, hfm, -⟩ := C48_labels .fausser l [0, 0.5, 1] 50 (by norm_num) ⟨1, by simp, by norm_num⟩
    .linear
  have hF : PlasmaMap fm :=
    ⟨.fausser, 9, 0, 3, 1.7, 0.3, 0.5, 0, l, [0, 0.5, 1], 50, .linear, .inl rfl, hl, by norm_num, hfm⟩
  refine ⟨fm, hF, fun psi hpsi => ?_⟩
  obtain ⟨s, W, -, -, h1, h2⟩ := C71_normalised good_constants .none C01_default plasma_values
    plasma_continuous fm hF psi hpsi.continuousOn .DT (by simp) (plasma_burns _) 2e9 (by norm_num)
  exact ⟨s, _, h1, fun r hr => (h2 r hr).1⟩

end Ex

end
end TNS
