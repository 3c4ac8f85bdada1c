import Verif.Spec.Workflow
import Verif.Props.Physical
import Verif.Props.Converge
import Verif.Props.FausserSource
import Verif.Props.SauterSource
import Verif.Props.Mcnp
import Verif.Props.OpenMCSpectrum
import Verif.Props.Parabolic
/-
C70: the documented workflow, with the package's own physics, always works.
-/

set_option autoImplicit false

namespace TNS
open Spec
noncomputable section

/-! ## The package's reactivities are admissible -/

theorem mapM_entries {α : Type} {f : α → Except Err ℝ} {l : List α} {w : List ℝ}
    (h : l.mapM f = .ok w) : w.length = l.length ∧ ∀ v ∈ w, ∃ a ∈ l, f a = .ok v := by
  refine ⟨(mapM_length h), fun v hv => ?_⟩
  exact mapM_mem h v hv

theorem boschHale_entry_nonneg (b : BoschHale) (hc : 0 < b.c0) (t v : ℝ) (h : b.entry t = .ok v) :
    0 ≤ v := by
  unfold BoschHale.entry at h
  split_ifs at h with h1
  · simp only at h
    split_ifs at h with h2
    rw [not_or, not_le] at h2
    have hth : 0 < t / (1 - b.num t / b.den t) := div_pos h1 h2.2
    cases h
    positivity
  · cases h; exact le_refl _

theorem boschHale_c0 (r : Reaction) (b : BoschHale) (hb : r.boschHale = some b) : 0 < b.c0 := by
  rcases r with (_ | _ | _) | (_ | _) <;> simp only [Reaction.boschHale, reduceCtorEq,
    Option.some.injEq] at hb <;> subst hb <;>
    norm_num [boschHaleDT, boschHaleDDn, boschHaleDDp]

/-- A cross-section reactivity needs positive temperatures. -/
theorem xs_positive (u : SI) (xs : CrossSection) (ts w : List ℝ)
    (h : xs.reactivity u ts = .ok w) : ∀ t ∈ ts, 0 < t := by
  unfold CrossSection.reactivity at h
  simp only [Bind.bind, Except.bind] at h
  split at h
  · cases h
  rename_i sigma _
  intro t ht
  obtain ⟨i, hi, rfl⟩ := List.mem_iff_getElem.1 ht
  have hl := mapM_length h
  have hv := mapM_get h i hi (by omega)
  unfold CrossSection.entry at hv
  split_ifs at hv with h0
  exact not_le.1 h0

theorem thermal_nonneg_of_good (u : SI) (m : Masses ℝ) (h : PhysicalData u m)
    (method : ReactivityMethod) (r : Reaction) (t : ℝ) (ht : 0 < t)
    (hg : goodTemperature method r t) : 0 < thermalReactivity u m method r t := by
  unfold thermalReactivity
  split_ifs with hc
  · unfold goodTemperature at hg
    rw [if_pos hc] at hg
    unfold boschHaleValue
    rw [if_neg (not_le.2 ht)]
    rcases r with (_ | _ | _) | (_ | _)
    · exact (C52_DT t ht).2
    · exact (C52_DDn t ht (hg rfl)).2
    · simp [hasBoschHale] at hc
    · exact (C52_DDp t ht).2
    · simp [hasBoschHale] at hc
  · exact (C53_reactivity u m h r [] (by simp)).2 t ht

/-- Whenever `reactivity` returns, it returns one non-negative number per temperature. -/
theorem C70_reactivity_nonneg (u : SI) (m : Masses ℝ) (h : PhysicalData u m) (method : ReactivityMethod)
    (r : Reaction) (ts w : List ℝ) (hw : reactivity u m method r ts = .ok w) :
    w.length = ts.length ∧ ∀ v ∈ w, 0 ≤ v := by
  have hxs : ∀ w, (r.crossSection u m).reactivity u ts = .ok w →
      w.length = ts.length ∧ ∀ v ∈ w, 0 ≤ v := by
    intro w hw
    have hpos := xs_positive u _ ts w hw
    obtain ⟨e, hp⟩ := C53_reactivity u m h r ts hpos
    simp only [reactivity] at e
    rw [hw] at e
    cases e
    refine ⟨by simp, fun v hv => ?_⟩
    obtain ⟨t, ht, rfl⟩ := List.mem_map.1 hv
    exact (hp t (hpos t ht)).le
  have hbh : ∀ b w, r.boschHale = some b → reactivityBoschHale ts r = .ok w →
      w.length = ts.length ∧ ∀ v ∈ w, 0 ≤ v := by
    intro b w hb hw
    unfold reactivityBoschHale at hw
    rw [hb] at hw
    simp only [BoschHale.channel] at hw
    split_ifs at hw
    refine ⟨mapM_length hw, fun v hv => ?_⟩
    obtain ⟨t, _, ht⟩ := mapM_mem hw v hv
    exact boschHale_entry_nonneg b (boschHale_c0 r b hb) t v ht
  cases method with
  | XS => exact hxs w hw
  | BOSCH_HALE =>
    cases hb : r.boschHale with
    | none => simp only [reactivity, hb] at hw; exact hxs w hw
    | some b => simp only [reactivity, hb] at hw; exact hbh b w hb hw
  | AUTO =>
    cases hb : r.boschHale with
    | none => simp only [reactivity, hb] at hw; exact hxs w hw
    | some b => simp only [reactivity, hb] at hw; exact hbh b w hb hw

/-! ## The plasma -/

theorem plasmaMap_data {fm : ParamMap} (h : PlasmaMap fm) :
    (∀ p, containsPoint fm.lcfs p = true → 0 < p.1) ∧
    containsPoint fm.lcfs (fm.oPoint.x, fm.oPoint.z) = true := by
  obtain ⟨p, r0, z0, aspect, kappa, delta, shift, sq, l, rho, n, conv, hp, hl, hn, hm⟩ := h
  have hrho : ∃ r ∈ rho, 0 < r := by
    by_contra hno
    push Not at hno
    have he : rho.filter (fun r => decide (r > 0)) = [] := by
      rw [List.filter_eq_nil_iff]
      intro a ha
      simpa using hno a ha
    obtain ⟨pts, hpts, -⟩ := C42_closed p l 1 n (by omega)
    simp [fromParameterisation, he, hpts, bind, Except.bind, pure, Except.pure] at hm
  obtain ⟨m, hm', hs, ho, -⟩ := C48_labels p l rho n (by omega) hrho conv
  rw [hm] at hm'
  cases hm'
  rw [lcfs_fausser p _ _ _ _ _ _ _ l hp hl] at hs
  have hbox := C40_box _ _ _ _ _ _ _ l hl 1 (by norm_num) (le_refl _) n _ hs
  refine ⟨fun p hp => ?_, ?_⟩
  · obtain ⟨⟨a, ha, ha'⟩, -⟩ := C65_within_box fm.lcfs p hp
    obtain ⟨q, hq, rfl⟩ := List.mem_map.1 ha
    exact (hbox q hq).1.trans_le ha'
  · rw [ho]
    exact C66_axis_inside _ _ _ _ _ _ _ l hl n hn _ hs

/-- Plasma at positive radius, magnetic axis inside the LCFS. -/
def Placed (fm : ParamMap) : Prop :=
  (∀ p, containsPoint fm.lcfs p = true → 0 < p.1) ∧
    containsPoint fm.lcfs (fm.oPoint.x, fm.oPoint.z) = true

theorem physicalInput {u : SI} {m : Masses ℝ} {c : ℝ} (hc : GoodConstants u m c)
    {method : ReactivityMethod} {st : List Reaction} {tr : Transport} (hg : GoodPlasma method st tr)
    {fm : ParamMap} (hfm : Placed fm) (psi : ℝ → ℝ → ℝ) :
    PhysicalInput Real.pi (totalEnergy m c) (reactivity u m method) tr.view (fm.view psi) where
  pi_pos := Real.pi_pos
  Q_pos := fun r => (C11_sign m c hc.c_pos r).2 (hc.exothermic r)
  deuterium := by
    intro p n h
    obtain ⟨n', e, hn⟩ := hg.deuterium p
    have h : tr.deuterium.value p = .ok n := h
    rw [e] at h; cases h; exact hn
  tritium := by
    intro p n h
    obtain ⟨n', e, hn⟩ := hg.tritium p
    have h : tr.tritium.value p = .ok n := h
    rw [e] at h; cases h; exact hn
  helium3 := by
    intro p n h
    obtain ⟨n', e, hn⟩ := hg.helium3 p
    have h : tr.helium3.value p = .ok n := h
    rw [e] at h; cases h; exact hn
  radius := hfm.1
  sv_length := fun r T w h => (C70_reactivity_nonneg u m hc.data method r T w h).1
  sv_nonneg := fun r T w h => (C70_reactivity_nonneg u m hc.data method r T w h).2

/-- The value of a profile, for use where it is known to have one. -/
def Profile.val (p : Profile) (rho : ℝ) : ℝ :=
  match p.value rho with
  | .ok v => v
  | .error _ => 0

theorem Profile.val_eq {p : Profile} {rho v : ℝ} (h : p.value rho = .ok v) : p.val rho = v := by
  unfold Profile.val; rw [h]

/-- The numbers a transport object describes. -/
def Transport.profiles (u : SI) (m : Masses ℝ) (method : ReactivityMethod) (tr : Transport) :
    Profiles ℝ :=
  { temperature := tr.temperature.val
    density := fun sp => match sp with
      | .deuterium => tr.deuterium.val
      | .tritium => tr.tritium.val
      | .helium3 => tr.helium3.val
    sv := thermalReactivity u m method }

theorem realises {u : SI} {m : Masses ℝ} (hd : PhysicalData u m)
    {method : ReactivityMethod} {st : List Reaction} {tr : Transport} (hg : GoodPlasma method st tr)
    (fm : FluxMapView ℝ) :
    Realises (tr.profiles u m method) (reactivity u m method) tr.view fm st where
  temperature := fun p _ => by
    obtain ⟨v, e, -⟩ := hg.temperature (fm.psiNorm p.1 p.2)
    simp only [Transport.view, Transport.profiles, e, Profile.val_eq e]
  deuterium := fun p _ => by
    obtain ⟨v, e, -⟩ := hg.deuterium (fm.psiNorm p.1 p.2)
    simp only [Transport.view, Transport.profiles, e, Profile.val_eq e]
  tritium := fun p _ => by
    obtain ⟨v, e, -⟩ := hg.tritium (fm.psiNorm p.1 p.2)
    simp only [Transport.view, Transport.profiles, e, Profile.val_eq e]
  helium3 := fun p _ => by
    obtain ⟨v, e, -⟩ := hg.helium3 (fm.psiNorm p.1 p.2)
    simp only [Transport.view, Transport.profiles, e, Profile.val_eq e]
  sv := fun r hr ts hne hts => by
    refine C51_dispatch u m hd method r ts hne fun t ht => ?_
    obtain ⟨p, -, rfl⟩ := hts t ht
    obtain ⟨v, e, hv⟩ := hg.temperature (fm.psiNorm p.1 p.2)
    simp only [Transport.profiles, Profile.val_eq e]
    exact hv r hr

/-! ## C70 -/

theorem constructs_of {u : SI} {m : Masses ℝ} {c : ℝ} (hc : GoodConstants u m c)
    (method : ReactivityMethod) (arg : SourceArg) (st : List Reaction)
    (hst : parseSourceType arg = .ok st) (tr : Transport) (hg : GoodPlasma method st tr)
    (fm : ParamMap) (hfm : Placed fm) (psi : ℝ → ℝ → ℝ) (L : ℝ) (hL : 0 < L) :
    ∃ s, makeSource u m c tr (fm.view psi) arg L none method = .ok s ∧ s.sourceType = st ∧
      (fm.oPoint.x, fm.oPoint.z) ∈ List.zip s.x s.z ∧
      ∀ r ∈ st, ∃ cells, s.strength.get? r = some cells ∧ cells.length = s.x.length ∧
        ∀ (i : ℕ) (x z v : ℝ), s.x[i]? = some x → s.z[i]? = some z → cells[i]? = some v →
        ∃ T nd nt nh, s.temperature[i]? = some T ∧ tr.temperature.value (psi x z) = .ok T ∧
          tr.deuterium.value (psi x z) = .ok nd ∧ tr.tritium.value (psi x z) = .ok nt ∧
          tr.helium3.value (psi x z) = .ok nh ∧ 0 < x ∧ 0 ≤ v ∧
          v = rateDensity (fun | .deuterium => nd | .tritium => nt | .helium3 => nh)
            (thermalReactivity u m method r T) r * (2 * Real.pi * x * L ^ 2) := by
  have hin := physicalInput hc hg hfm psi
  have hR := realises hc.data hg (fm.view psi)
  have hax := hfm
  have hmem : (fm.oPoint.x, fm.oPoint.z) ∈ samplePoints (fm.view psi).lcfsX (fm.view psi).lcfsZ
      (fm.view psi).inside (fm.view psi).oX (fm.view psi).oZ L :=
    C13_o_point _ _ _ (C65_within_box fm.lcfs) _ _ L hL hax.2
  obtain ⟨s, hs, hty, hstr⟩ := C10_closed_form Real.pi (totalEnergy m c) (reactivity u m method)
    tr.view (fm.view psi) (tr.profiles u m method) arg st hst hR L (List.ne_nil_of_mem hmem)
  have hreach : PhysReachable Real.pi (totalEnergy m c) (reactivity u m method) s :=
    .constructed hin (by simp) hs
  obtain ⟨temp, d, t, he, f, _, _, _, _, _, hx, hz, _⟩ := Source.init_none hs
  refine ⟨s, hs, hty, ?_, fun r hr => ?_⟩
  · rw [hx, hz]
    simp only [sampleSpace2d]
    rw [List.zip_map', List.mem_map]
    exact ⟨_, hmem, rfl⟩
  · obtain ⟨cells, w, h1, h2, h3, h4, h5, h6, h7⟩ :=
      C10_strength_formula hin.sv_length hs r (by rw [hty]; exact hr)
    have hnn := (C64_nonneg hreach).1 r cells h1
    refine ⟨cells, h1, h3, ?_⟩
    intro i x z v hxi hzi hvi
    obtain ⟨ix, ex⟩ := List.getElem?_eq_some_iff.1 hxi
    obtain ⟨e0, nd, nt, nh, e1, e2, e3, e4⟩ := h7 i x z (s.temperature[i]'(by omega))
      (w[i]'(by omega)) v hxi hzi (List.getElem?_eq_getElem _) (List.getElem?_eq_getElem _) hvi
    refine ⟨_, nd, nt, nh, List.getElem?_eq_getElem (by omega), e0, e1, e2, e3, ?_,
      hnn.2 v (List.mem_of_getElem? hvi), ?_⟩
    · have hxm := List.mem_of_getElem? hxi
      rw [hx] at hxm
      simp only [sampleSpace2d, List.mem_map] at hxm
      obtain ⟨p, hp, rfl⟩ := hxm
      exact hin.radius p (List.mem_filter.1 hp).2
    · rw [e4]
      have hw : w = s.temperature.map (thermalReactivity u m method r) := by
        have := C51_dispatch u m hc.data method r s.temperature (by
          intro h0; rw [h0] at h5; simp at h5; omega) (by
          intro T hT
          obtain ⟨j, hj, rfl⟩ := List.mem_iff_getElem.1 hT
          obtain ⟨e0', -⟩ := h7 j (s.x[j]'(by omega)) (s.z[j]'(by omega)) (s.temperature[j])
            (w[j]'(by omega)) (cells[j]'(by omega)) (List.getElem?_eq_getElem _)
            (List.getElem?_eq_getElem _) (List.getElem?_eq_getElem _) (List.getElem?_eq_getElem _)
            (List.getElem?_eq_getElem _)
          obtain ⟨T', e, hT'⟩ := hg.temperature ((fm.view psi).psiNorm (s.x[j]'(by omega))
            (s.z[j]'(by omega)))
          have e0' : tr.temperature.value _ = _ := e0'
          rw [e] at e0'; cases e0'
          exact hT' r hr)
        rw [h2] at this
        exact Except.ok.inj this
      subst hw
      rw [List.getElem_map]
      generalize thermalReactivity u m method r s.temperature[i] = y
      refine congrArg (· * (2 * Real.pi * x * L ^ 2)) (congrArg (fun n => rateDensity n y r) ?_)
      funext sp
      cases sp <;> rfl

/-- **C70**, construction: with physical constants, a plasma whose profiles have non-negative densities
and temperatures at which the requested channels have a reactivity, a flux map from an accepted Fausser
parameterisation (whatever its interpolator returns), any understood source type, any cell size and any
reactivity method, the constructor succeeds.  The source has the requested channels and a cell at the
magnetic axis, and each cell's strength is `n₁ n₂ <σv>(T) / (1 + δ₁₂)` times `2π x L²` with the published
reactivity. -/
theorem C70_constructs {u : SI} {m : Masses ℝ} {c : ℝ} (hc : GoodConstants u m c)
    (method : ReactivityMethod) (arg : SourceArg) (st : List Reaction)
    (hst : parseSourceType arg = .ok st) (tr : Transport) (hg : GoodPlasma method st tr)
    (fm : ParamMap) (hfm : PlasmaMap fm) (psi : ℝ → ℝ → ℝ) (L : ℝ) (hL : 0 < L) :
    ∃ s, makeSource u m c tr (fm.view psi) arg L none method = .ok s ∧ s.sourceType = st ∧
      (fm.oPoint.x, fm.oPoint.z) ∈ List.zip s.x s.z ∧
      ∀ r ∈ st, ∃ cells, s.strength.get? r = some cells ∧ cells.length = s.x.length ∧
        ∀ (i : ℕ) (x z v : ℝ), s.x[i]? = some x → s.z[i]? = some z → cells[i]? = some v →
        ∃ T nd nt nh, s.temperature[i]? = some T ∧ tr.temperature.value (psi x z) = .ok T ∧
          tr.deuterium.value (psi x z) = .ok nd ∧ tr.tritium.value (psi x z) = .ok nt ∧
          tr.helium3.value (psi x z) = .ok nh ∧ 0 < x ∧ 0 ≤ v ∧
          v = rateDensity (fun | .deuterium => nd | .tritium => nt | .helium3 => nh)
            (thermalReactivity u m method r T) r * (2 * Real.pi * x * L ^ 2) :=
  constructs_of hc method arg st hst tr hg fm (plasmaMap_data hfm) psi L hL

/-- The constructor with a power is the one without, followed by the normalisation. -/
theorem init_some_of {K : Type} [Field K] [LinearOrder K] [IsStrictOrderedRing K] [FloorRing K]
    {pi : K} {Q : Reaction → K}
    {sv : Reaction → List K → Except Err (List K)} {tr : TransportView K} {fm : FluxMapView K}
    {arg : SourceArg} {L P : K} {s0 s : Source K}
    (h : Source.init pi Q sv tr fm arg L none = .ok s0) (hn : s0.normalise Q P = .ok s) :
    Source.init pi Q sv tr fm arg L (some P) = .ok s := by
  unfold Source.init at h ⊢
  simp only [Bind.bind, Except.bind] at h ⊢
  split at h
  · cases h
  split at h
  · cases h
  split at h
  · cases h
  split at h
  · cases h
  split at h
  · cases h
  split at h
  · cases h
  · cases h
    simp_all

theorem sourceRate_pos {pi : ℝ} {Q : Reaction → ℝ} {sv : Reaction → List ℝ → Except Err (List ℝ)}
    {s : Source ℝ} (h : PhysReachable pi Q sv s) (r : Neutronic) (hr : .n r ∈ s.sourceType)
    (hpos : 0 < s.numReactions.getD (.n r) 0) : 0 < s.sourceRate := by
  rw [(C08_source_rates h.reachable).1]
  have hy : (0 : ℝ) < neutronYield (.n r) := by cases r <;> simp [neutronYield]
  refine lt_of_lt_of_le (mul_pos hy hpos) (List.single_le_sum (fun a ha => ?_) _
    (List.mem_map.2 ⟨.n r, hr, rfl⟩))
  obtain ⟨r', _, rfl⟩ := List.mem_map.1 ha
  refine mul_nonneg (Nat.cast_nonneg _) ?_
  unfold Dict.getD
  cases e : s.numReactions.get? r' with
  | none => exact le_refl _
  | some v => exact (C64_nonneg h).2.1 r' v e

theorem power_of {u : SI} {m : Masses ℝ} {c : ℝ} (hc : GoodConstants u m c)
    (method : ReactivityMethod) (arg : SourceArg) (st : List Reaction)
    (hst : parseSourceType arg = .ok st) (tr : Transport) (hg : GoodPlasma method st tr)
    (fm : ParamMap) (hfm : Placed fm) (psi : ℝ → ℝ → ℝ) (L : ℝ) (hL : 0 < L)
    (r : Reaction) (hr : r ∈ st) (hb : Burns tr r (psi fm.oPoint.x fm.oPoint.z)) (P : ℝ) (hP : 0 < P) :
    ∃ s0 s k, makeSource u m c tr (fm.view psi) arg L none method = .ok s0 ∧
      makeSource u m c tr (fm.view psi) arg L (some P) method = .ok s ∧
      PhysReachable Real.pi (totalEnergy m c) (reactivity u m method) s ∧
      s.totalPower (totalEnergy m c) = P ∧ s.sourceType = st ∧
      s.x = s0.x ∧ s.z = s0.z ∧ s.temperature = s0.temperature ∧ s.cellSideLength = L ∧
      0 < k ∧ (∀ r, s.strength.get? r = (s0.strength.get? r).map (fun l => l.map (fun v => v * k))) ∧
      0 < s.numReactions.getD r 0 := by
  have hin := physicalInput hc hg hfm psi
  obtain ⟨s0, h0, hty, hax, hcells⟩ := constructs_of hc method arg st hst tr hg fm hfm psi L hL
  have h0' : Source.init Real.pi (totalEnergy m c) (reactivity u m method) tr.view (fm.view psi) arg L
      none = .ok s0 := h0
  obtain ⟨i, hi, hio⟩ := List.mem_iff_getElem.1 hax
  have hxi : i < s0.x.length := by rw [List.length_zip] at hi; omega
  have hzi : i < s0.z.length := by rw [List.length_zip] at hi; omega
  rw [List.getElem_zip, Prod.mk.injEq] at hio
  have ex : s0.x[i]? = some fm.oPoint.x := by rw [List.getElem?_eq_getElem hxi, hio.1]
  have ez : s0.z[i]? = some fm.oPoint.z := by rw [List.getElem?_eq_getElem hzi, hio.2]
  obtain ⟨cells, w, g1, g2, g3, g4, g5, g6, g7⟩ :=
    C10_strength_formula hin.sv_length h0' r (by rw [hty]; exact hr)
  obtain ⟨cells', g1', -, hcell⟩ := hcells r hr
  rw [g1] at g1'; cases g1'
  obtain ⟨eT, nd, nt, nh, e1, e2, e3, e4⟩ := g7 i _ _ (s0.temperature[i]'(by omega))
    (w[i]'(by omega)) (cells[i]'(by omega)) ex ez (List.getElem?_eq_getElem _)
    (List.getElem?_eq_getElem _) (List.getElem?_eq_getElem _)
  have hTpos := hb.temperature _ eT
  obtain ⟨T', eT', hT'⟩ := hg.temperature (psi fm.oPoint.x fm.oPoint.z)
  have eT2 : tr.temperature.value (psi fm.oPoint.x fm.oPoint.z) = .ok (s0.temperature[i]'(by omega)) :=
    eT
  rw [eT2] at eT'; cases eT'
  have hwi : w[i]'(by omega) = thermalReactivity u m method r (s0.temperature[i]'(by omega)) := by
    have := C51_dispatch u m hc.data method r s0.temperature (by
      intro h0; rw [h0] at g5; simp at g5; omega) (by
      intro T hT
      obtain ⟨j, hj, rfl⟩ := List.mem_iff_getElem.1 hT
      obtain ⟨e0', -⟩ := g7 j (s0.x[j]'(by omega)) (s0.z[j]'(by omega)) (s0.temperature[j])
        (w[j]'(by omega)) (cells[j]'(by omega)) (List.getElem?_eq_getElem _)
        (List.getElem?_eq_getElem _) (List.getElem?_eq_getElem _) (List.getElem?_eq_getElem _)
        (List.getElem?_eq_getElem _)
      obtain ⟨T', e, hT'⟩ := hg.temperature ((fm.view psi).psiNorm (s0.x[j]'(by omega))
        (s0.z[j]'(by omega)))
      have e0' : tr.temperature.value _ = _ := e0'
      rw [e] at e0'; cases e0'
      exact hT' r hr)
    rw [g2] at this
    have hw : w = s0.temperature.map (thermalReactivity u m method r) := Except.ok.inj this
    subst hw
    rw [List.getElem_map]
  have hvpos : 0 < w[i]'(by omega) := by
    rw [hwi]; exact thermal_nonneg_of_good u m hc.data method r _ hTpos (hT' r hr)
  obtain ⟨cells2, cv, k1, k2, k3, k4, k5⟩ := C64_positive hin hL h0' r (by rw [hty]; exact hr) i
    fm.oPoint.x fm.oPoint.z (w[i]'(by omega)) w ex ez g2 (List.getElem?_eq_getElem _) hvpos
    ⟨nd, e1, hb.deuterium nd e1⟩ ⟨nt, e2, hb.tritium nt e2⟩ ⟨nh, e3, hb.helium3 nh e3⟩
  have hne : s0.sourceType ≠ [] := by rw [hty]; exact List.ne_nil_of_mem hr
  have hnorm : s0.normalise (totalEnergy m c) P = .ok
      (s0.sourceType.foldl (Source.scaleReaction (P / s0.totalPower (totalEnergy m c))) s0) :=
    (Source.normalise_ok_iff _ P s0 _).2 ⟨hne, k5.ne', rfl⟩
  generalize s0.sourceType.foldl (Source.scaleReaction (P / s0.totalPower (totalEnergy m c))) s0 = s
    at hnorm
  have hs := init_some_of h0' hnorm
  have hr0 : Reachable Real.pi (totalEnergy m c) (reactivity u m method) s0 := .constructed h0'
  obtain ⟨k, -, hk, q1, q2, -, q4, q5, q6, q7⟩ := C06_one_factor hr0 hnorm
  have hkpos := hk hP k5
  obtain ⟨_, _, _, _, _, _, _, _, _, _, _, _, _, hL0, _⟩ := Source.init_none h0'
  refine ⟨s0, s, k, h0, hs, .constructed hin (fun P' e => by cases e; exact hP) hs,
    C03_constructed_with_power hs, q6.trans hty, q1, q2, q4, q5.trans hL0, hkpos, fun r => (q7 r).1, ?_⟩
  rw [Dict.getD, (q7 r).2.1]
  unfold Dict.getD at k4
  cases e : s0.numReactions.get? r with
  | none => rw [e] at k4; exact absurd k4 (lt_irrefl _)
  | some v => rw [e] at k4; exact mul_pos k4 hkpos

/-- **C70**, power: if moreover the plasma burns at the magnetic axis in some channel of the source, the
constructor with a positive fusion power succeeds too; the source has exactly that power, and its strengths
are those of the source without power, times one positive factor. -/
theorem C70_power {u : SI} {m : Masses ℝ} {c : ℝ} (hc : GoodConstants u m c)
    (method : ReactivityMethod) (arg : SourceArg) (st : List Reaction)
    (hst : parseSourceType arg = .ok st) (tr : Transport) (hg : GoodPlasma method st tr)
    (fm : ParamMap) (hfm : PlasmaMap fm) (psi : ℝ → ℝ → ℝ) (L : ℝ) (hL : 0 < L)
    (r : Reaction) (hr : r ∈ st) (hb : Burns tr r (psi fm.oPoint.x fm.oPoint.z)) (P : ℝ) (hP : 0 < P) :
    ∃ s0 s k, makeSource u m c tr (fm.view psi) arg L none method = .ok s0 ∧
      makeSource u m c tr (fm.view psi) arg L (some P) method = .ok s ∧
      PhysReachable Real.pi (totalEnergy m c) (reactivity u m method) s ∧
      s.totalPower (totalEnergy m c) = P ∧ s.sourceType = st ∧
      s.x = s0.x ∧ s.z = s0.z ∧ s.temperature = s0.temperature ∧ s.cellSideLength = L ∧
      0 < k ∧ (∀ r, s.strength.get? r = (s0.strength.get? r).map (fun l => l.map (fun v => v * k))) ∧
      0 < s.numReactions.getD r 0 :=
  power_of hc method arg st hst tr hg fm (plasmaMap_data hfm) psi L hL r hr hb P hP

theorem exports_of {u : SI} {m : Masses ℝ} {c : ℝ} (hc : GoodConstants u m c)
    (method : ReactivityMethod) (arg : SourceArg) (st : List Reaction)
    (hst : parseSourceType arg = .ok st) (tr : Transport) (hg : GoodPlasma method st tr)
    (hT : ∀ rho T, tr.temperature.value rho = .ok T → 0 < T ∧ T ≤ 40)
    (fm : ParamMap) (hfm : Placed fm) (psi : ℝ → ℝ → ℝ) (L : ℝ) (hL : 0 < L)
    (r : Neutronic) (hr : .n r ∈ st) (hb : Burns tr (.n r) (psi fm.oPoint.x fm.oPoint.z))
    (P : ℝ) (hP : 0 < P) (spec : SpectrumMethod) (hspec : spec ≠ .DATA) (stub : String) :
    ∃ s rings files, makeSource u m c tr (fm.view psi) arg L (some P) method = .ok s ∧
      s.totalPower (totalEnergy m c) = P ∧
      s.toOpenmcSource spec = .ok rings ∧
      (∃ vals : List ℝ, rings.map (·.strength) = vals.map XF.fin ∧ (∀ v ∈ vals, 0 < v) ∧
        vals.sum = 1) ∧
      s.toSdef stub = .ok files ∧
      files.map (·.reaction) = st.filter (fun r => decide (0 < neutronYield r)) := by
  obtain ⟨s0, s, k, h0, hs, hphys, hpow, hty, hx, hz, hTe, -, -, -, hnum⟩ :=
    power_of hc method arg st hst tr hg fm hfm psi L hL _ hr hb P hP
  have hrate := sourceRate_pos hphys r (by rw [hty]; exact hr) hnum
  have hmem : ∀ t ∈ s.temperature, 0 < t ∧ t ≤ 40 := by
    intro t ht
    rw [hTe] at ht
    have h0' : Source.init Real.pi (totalEnergy m c) (reactivity u m method) tr.view (fm.view psi) arg L
      none = .ok s0 := h0
    obtain ⟨temp, d, tt, he, f, _, t1, _, _, _, _, _, _, _, hT0, _⟩ := Source.init_none h0'
    rw [hT0] at ht
    obtain ⟨a, -, ha⟩ := mapM_mem t1 t ht
    exact hT a t ha
  have hneut : ∀ q : Reaction, q.isNeutronic = true → ∃ q', q = .n q' := by
    intro q hq
    cases q with
    | n q' => exact ⟨q', rfl⟩
    | a q' => cases q' <;> simp [Reaction.isNeutronic] at hq
  have hsp : ∀ q : Reaction, q.isNeutronic = true → ∀ t ∈ s.temperature,
      ∃ d, neutronEnergySpectrum spec q t = .ok d := by
    intro q hq t ht
    obtain ⟨q', rfl⟩ := hneut q hq
    obtain ⟨d, hd, -⟩ := C69_distribution q' t (hmem t ht).1 (hmem t ht).2 spec
      (fun e => absurd e hspec)
    exact ⟨d, hd⟩
  classical
  obtain ⟨rings, hrings, vals, hv1, hv2, hv3, -⟩ := C18_strengths hphys hrate (neutronEnergySpectrum spec)
    (fun q t => if h : ∃ d, neutronEnergySpectrum spec q t = .ok d then h.choose else .normal 0 1)
    (by
      intro q hq t ht
      have h := hsp q hq t ht
      rw [dif_pos h]
      exact h.choose_spec)
  have hne : s.x ≠ [] := by
    obtain ⟨s0', h0', -, hax, -⟩ := constructs_of hc method arg st hst tr hg fm hfm psi L hL
    rw [h0] at h0'; cases h0'
    intro e
    rw [← hx, e] at hax
    simp at hax
  obtain ⟨files, hfiles, hreact, -⟩ := C28_files hphys.reachable hne stub
  exact ⟨s, rings, files, hs, hpow, hrings, ⟨vals, hv1, hv2, hv3⟩, hfiles, by rw [hreact, hty]⟩

/-- **C70**, exports: for temperatures up to 40 keV, the source of `C70_power` with a burning neutronic
channel can be exported.  `to_openmc_source` returns sources whose strengths are positive and sum to 1;
`to_sdef_card` writes one file per neutronic channel. -/
theorem C70_exports {u : SI} {m : Masses ℝ} {c : ℝ} (hc : GoodConstants u m c)
    (method : ReactivityMethod) (arg : SourceArg) (st : List Reaction)
    (hst : parseSourceType arg = .ok st) (tr : Transport) (hg : GoodPlasma method st tr)
    (hT : ∀ rho T, tr.temperature.value rho = .ok T → 0 < T ∧ T ≤ 40)
    (fm : ParamMap) (hfm : PlasmaMap fm) (psi : ℝ → ℝ → ℝ) (L : ℝ) (hL : 0 < L)
    (r : Neutronic) (hr : .n r ∈ st) (hb : Burns tr (.n r) (psi fm.oPoint.x fm.oPoint.z))
    (P : ℝ) (hP : 0 < P) (spec : SpectrumMethod) (hspec : spec ≠ .DATA) (stub : String) :
    ∃ s rings files, makeSource u m c tr (fm.view psi) arg L (some P) method = .ok s ∧
      s.totalPower (totalEnergy m c) = P ∧
      s.toOpenmcSource spec = .ok rings ∧
      (∃ vals : List ℝ, rings.map (·.strength) = vals.map XF.fin ∧ (∀ v ∈ vals, 0 < v) ∧
        vals.sum = 1) ∧
      s.toSdef stub = .ok files ∧
      files.map (·.reaction) = st.filter (fun r => decide (0 < neutronYield r)) :=
  exports_of hc method arg st hst tr hg hT fm (plasmaMap_data hfm) psi L hL r hr hb P hP spec hspec stub

/-! ## Which plasmas are good -/

/-- **C70**, parabolic-pedestal profiles: a transport object built by `from_parameterisations` from a
temperature profile with `0 < separatrix ≤ pedestal ≤ core` (core at most 960 keV), a fuel density profile
with `0 ≤ separatrix ≤ pedestal ≤ core` and non-negative fuel fractions is good for every source type and
reactivity method; all its temperatures lie between separatrix and core. -/
theorem C70_pedestal (method : ReactivityMethod) (st : List Reaction) (h : Heap) (temp fuel : ℕ)
    (cT pT sT aT bT rT cN pN sN aN bN rN : ℝ)
    (hT : h[temp]? = some ⟨.pedestal cT pT sT aT bT rT, 1⟩)
    (hN : h[fuel]? = some ⟨.pedestal cN pN sN aN bN rN, 1⟩)
    (t1 : 0 < sT ∧ sT ≤ pT ∧ pT ≤ cT ∧ cT ≤ 960) (t2 : 0 < aT ∧ 0 < bT ∧ 0 < rT ∧ rT < 1)
    (n1 : 0 ≤ sN ∧ sN ≤ pN ∧ pN ≤ cN) (n2 : 0 < aN ∧ 0 < bN ∧ 0 < rN ∧ rN < 1)
    (d t he : ℝ) (hd : 0 ≤ d) (ht : 0 ≤ t) (hhe : 0 ≤ he) (c : Composition ℝ)
    (hc : Composition.make d t he = .ok c) :
    ∃ h' ref tr, fromParameterisations h temp fuel c = some (h', ref) ∧ ref.read h' = some tr ∧
      GoodPlasma method st tr ∧
      (∀ rho T, tr.temperature.value rho = .ok T → sT ≤ T ∧ T ≤ cT) ∧
      (0 < d → 0 < t → 0 < sN → ∀ rho, Burns tr .DT rho) := by
  obtain ⟨⟨f1, -⟩, ⟨f2, -⟩, f3, -⟩ := C31_nonneg d t he hd ht hhe c hc
  have hbT := C37_bounds cT pT sT aT bT rT t2.1 t2.2.1 t2.2.2.1 t2.2.2.2 t1.2.2.1 t1.2.1
  have hbN := C37_bounds cN pN sN aN bN rN n2.1 n2.2.1 n2.2.2.1 n2.2.2.2 n1.2.2 n1.2.1
  have htemp := (List.getElem?_eq_some_iff.1 hT).1
  refine ⟨_, _, Transport.mk (Profile.setScale ⟨.pedestal cN pN sN aN bN rN, 1⟩ c.D)
    (Profile.setScale ⟨.pedestal cN pN sN aN bN rN, 1⟩ c.T)
    (Profile.setScale ⟨.pedestal cN pN sN aN bN rN, 1⟩ c.He3)
    ⟨.pedestal cT pT sT aT bT rT, 1⟩, fromParam_eq h temp fuel c _ _ hN hT, ?_, ⟨?_, ?_, ?_, ?_⟩,
    ?_, ?_⟩
  · simp [TransportRef.read, List.getElem?_append_right, List.getElem?_append_left htemp, hT]
  · intro rho
    refine ⟨_, rfl, fun r _ => ?_⟩
    obtain ⟨b1, b2⟩ := hbT rho
    have hp : 0 < pedestalValue cT pT sT aT bT rT rho * 1 := by rw [mul_one]; linarith
    unfold goodTemperature
    split_ifs
    · intro _; rw [mul_one]; linarith
    · exact hp
  · intro rho
    exact ⟨_, rfl, mul_nonneg (n1.1.trans (hbN rho).1) (by simpa [Profile.setScale] using f1)⟩
  · intro rho
    exact ⟨_, rfl, mul_nonneg (n1.1.trans (hbN rho).1) (by simpa [Profile.setScale] using f2)⟩
  · intro rho
    exact ⟨_, rfl, mul_nonneg (n1.1.trans (hbN rho).1) (by simpa [Profile.setScale] using f3)⟩
  · intro rho T e
    simp only [Profile.value, mul_one, Except.ok.injEq] at e
    rw [← e]; exact hbT rho
  · intro d0 t0 s0 rho
    have hsum : d + t + he ≠ 0 := by positivity
    obtain ⟨c', e0, -, e2, e3, -⟩ := (C31_fractions d t he).2.1 hsum
    rw [hc] at e0; cases e0
    have g1 : 0 < c.D := by
      rcases f1.eq_or_lt with e | e
      · rw [← e] at e2; linarith
      · exact e
    have g2 : 0 < c.T := by
      rcases f2.eq_or_lt with e | e
      · rw [← e] at e3; linarith
      · exact e
    have hpos := s0.trans_le (hbN rho).1
    refine ⟨?_, ?_, ?_, ?_⟩
    · intro T e
      simp only [Profile.value, mul_one, Except.ok.injEq] at e
      rw [← e]; exact t1.1.trans_le (hbT rho).1
    · intro n e _
      simp only [Profile.value, Profile.setScale, one_mul, Except.ok.injEq] at e
      rw [← e]; exact mul_pos hpos g1
    · intro n e _
      simp only [Profile.value, Profile.setScale, one_mul, Except.ok.injEq] at e
      rw [← e]; exact mul_pos hpos g2
    · intro n e hr
      simp [Reaction.DT, reactants] at hr

/-- **C70**, data profiles: a transport object built by `from_profiles` from radii increasing from 0 to 1,
positive temperatures (at most 960 keV), non-negative fuel densities and non-negative fuel fractions is good
for every source type and reactivity method. -/
theorem C70_data (method : ReactivityMethod) (st : List Reaction) (rho fuel temp : List ℝ)
    (hsort : rho.Pairwise (· < ·)) (h0 : rho.head? = some 0) (h1 : rho.getLast? = some 1)
    (hf : fuel.length = rho.length) (ht : temp.length = rho.length)
    (hT : ∀ T ∈ temp, 0 < T ∧ T ≤ 960) (hn : ∀ n ∈ fuel, 0 ≤ n)
    (d t he : ℝ) (hd : 0 ≤ d) (ht0 : 0 ≤ t) (hhe : 0 ≤ he) (c : Composition ℝ)
    (hc : Composition.make d t he = .ok c) :
    ∃ tr, Transport.fromProfiles rho fuel temp c = .ok tr ∧ GoodPlasma method st tr := by
  obtain ⟨⟨f1, -⟩, ⟨f2, -⟩, f3, -⟩ := C31_nonneg d t he hd ht0 hhe c hc
  obtain ⟨tr, htr⟩ := (C32_lengths rho fuel temp c).2 ⟨hf, ht⟩
  have table : ∀ vs : List ℝ, vs.length = rho.length → ∀ lo hi, (∀ v ∈ vs, lo ≤ v ∧ v ≤ hi) → ∀ x,
      ∃ v, (⟨.data (List.zip rho vs), 1⟩ : Profile).value x = .ok v ∧ lo ≤ v ∧ v ≤ hi := by
    intro vs hl lo hi hv x
    have hfst : (List.zip rho vs).map Prod.fst = rho := by
      rw [List.map_fst_zip]; omega
    have hs : SortedTable (List.zip rho vs) := by
      have := hsort
      rw [← hfst] at this
      exact List.pairwise_map.1 this
    obtain ⟨a, ha, ha0⟩ : ∃ a, (List.zip rho vs).head? = some a ∧ a.1 = 0 := by
      rw [← hfst, List.head?_map, Option.map_eq_some_iff] at h0; exact h0
    obtain ⟨b, hb, hb1⟩ : ∃ b, (List.zip rho vs).getLast? = some b ∧ b.1 = 1 := by
      rw [← hfst, List.getLast?_map, Option.map_eq_some_iff] at h1; exact h1
    obtain ⟨c0, c1⟩ := clip_mem x
    obtain ⟨v, hv'⟩ := (C35_range _ hs a b ha hb 1 x).2.1 ⟨by rw [ha0]; exact c0, by rw [hb1]; exact c1⟩
    have hbd := C35_bounds _ hs lo hi 1 x v (by norm_num)
      (fun p hp => (hv p.2 (List.of_mem_zip hp).2).1) (fun p hp => (hv p.2 (List.of_mem_zip hp).2).2) hv'
    exact ⟨v, hv', by linarith [hbd.1], by linarith [hbd.2]⟩
  have lower : ∀ vs : List ℝ, (∀ v ∈ vs, 0 < v) → ∃ lo, 0 < lo ∧ ∀ v ∈ vs, lo ≤ v := by
    intro vs
    induction vs with
    | nil => intro _; exact ⟨1, one_pos, by simp⟩
    | cons a l ih =>
      intro hl
      obtain ⟨lo, l1, l2⟩ := ih (fun v hv => hl v (List.mem_cons_of_mem _ hv))
      refine ⟨min a lo, lt_min (hl a List.mem_cons_self) l1, fun v hv => ?_⟩
      rcases List.mem_cons.1 hv with rfl | hv
      · exact min_le_left _ _
      · exact (min_le_right _ _).trans (l2 v hv)
  have upper : ∀ vs : List ℝ, ∃ hi : ℝ, ∀ v ∈ vs, v ≤ hi := by
    intro vs
    induction vs with
    | nil => exact ⟨0, by simp⟩
    | cons a l ih =>
      obtain ⟨hi, l2⟩ := ih
      refine ⟨max a hi, fun v hv => ?_⟩
      rcases List.mem_cons.1 hv with rfl | hv
      · exact le_max_left _ _
      · exact (l2 v hv).trans (le_max_right _ _)
  obtain ⟨hi, hhi⟩ := upper fuel
  obtain ⟨lo, lo0, hlo⟩ := lower temp (fun v hv => (hT v hv).1)
  have hden : ∀ x, ∃ n, (⟨.data (List.zip rho fuel), 1⟩ : Profile).value x = .ok n ∧ 0 ≤ n := fun x => by
    obtain ⟨n, e, h, -⟩ := table fuel hf 0 hi (fun v hv => ⟨hn v hv, hhi v hv⟩) x
    exact ⟨n, e, h⟩
  refine ⟨tr, htr, ⟨fun x => ?_, fun x => ?_, fun x => ?_, fun x => ?_⟩⟩
  · obtain ⟨-, -, -, e⟩ := C32_arrays rho fuel temp c tr htr x
    obtain ⟨T, e', h1, h2⟩ := table temp ht lo 960 (fun v hv => ⟨hlo v hv, (hT v hv).2⟩) x
    refine ⟨T, e.trans e', fun r _ => ?_⟩
    unfold goodTemperature
    split_ifs
    · intro _; exact h2
    · exact lo0.trans_le h1
  · obtain ⟨e, -⟩ := C32_arrays rho fuel temp c tr htr x
    obtain ⟨n, e', h0⟩ := hden x
    rw [e'] at e
    exact ⟨_, e, mul_nonneg f1 h0⟩
  · obtain ⟨-, e, -⟩ := C32_arrays rho fuel temp c tr htr x
    obtain ⟨n, e', h0⟩ := hden x
    rw [e'] at e
    exact ⟨_, e, mul_nonneg f2 h0⟩
  · obtain ⟨-, -, e, -⟩ := C32_arrays rho fuel temp c tr htr x
    obtain ⟨n, e', h0⟩ := hden x
    rw [e'] at e
    exact ⟨_, e, mul_nonneg f3 h0⟩

/-! ## A cold cell -/

theorem foldlM_addReaction_error (sv : Reaction → List ℝ → Except Err (List ℝ))
    (d t h temp vol : List ℝ) (e : Err) (l : List Reaction) (s0 : Source ℝ)
    (ht : s0.temperature = temp) (hv : s0.dVolume = vol)
    (hall : ∀ r ∈ l, ∀ e', sv r temp = .error e' → e' = e) (hex : ∃ r ∈ l, sv r temp = .error e) :
    l.foldlM (Source.addReaction sv d t h) s0 = .error e := by
  induction l generalizing s0 with
  | nil => obtain ⟨r, hr, _⟩ := hex; cases hr
  | cons a l ih =>
    rw [List.foldlM_cons]
    cases ea : sv a temp with
    | error x =>
      obtain rfl := hall a List.mem_cons_self x ea
      simp [Source.addReaction, densityWeightedReactivity, ht, ea, Bind.bind, Except.bind]
    | ok w =>
      have hex' : ∃ r ∈ l, sv r temp = .error e := by
        obtain ⟨r, hr, he⟩ := hex
        rcases List.mem_cons.1 hr with rfl | hr
        · rw [ea] at he; cases he
        · exact ⟨r, hr, he⟩
      simp only [Source.addReaction, densityWeightedReactivity, ht, ea, Bind.bind, Except.bind]
      exact ih _ (by simpa using ht) hv (fun r hr => hall r (List.mem_cons_of_mem _ hr)) hex'

/-- **C70**, cold cells: the default source includes T-T, whose reactivity comes from cross sections.  If the
temperature profile is zero (or negative) at a single sampled cell, as a `ParabolicProfile` is at normalised
radius 1, the source strengths are not finite. -/
theorem C70_cold_cell {u : SI} {m : Masses ℝ} (hd : PhysicalData u m) (c : ℝ) (arg : SourceArg)
    (st : List Reaction) (hst : parseSourceType arg = .ok st) (hTT : .TT ∈ st) (tr : Transport)
    (hT : ∀ rho, ∃ T, tr.temperature.value rho = .ok T ∧ T ≤ 960)
    (hnd : ∀ rho, ∃ n, tr.deuterium.value rho = .ok n)
    (hnt : ∀ rho, ∃ n, tr.tritium.value rho = .ok n) (hnh : ∀ rho, ∃ n, tr.helium3.value rho = .ok n)
    (fm : FluxMapView ℝ) (L : ℝ) (p : ℝ × ℝ)
    (hp : p ∈ samplePoints fm.lcfsX fm.lcfsZ fm.inside fm.oX fm.oZ L)
    (hcold : ∀ T, tr.temperature.value (fm.psiNorm p.1 p.2) = .ok T → T ≤ 0) (power : Option ℝ) :
    makeSource u m c tr fm arg L power .AUTO = .error .nonFinite := by
  have hx : ∀ xs : CrossSection, ∀ ts : List ℝ, (∃ sigma, tGridKeV.mapM xs.call = .ok sigma) →
      (∀ e, xs.reactivity u ts = .error e → e = .nonFinite) ∧
      ((∃ t ∈ ts, t ≤ 0) → xs.reactivity u ts = .error .nonFinite) := by
    rintro xs ts ⟨sigma, hs⟩
    have h1 : xs.reactivity u ts = ts.mapM (xs.entry u sigma) := by
      unfold CrossSection.reactivity
      rw [hs]; rfl
    have hall : ∀ a ∈ ts, ∀ e, xs.entry u sigma a = .error e → e = Err.nonFinite := by
      intro a _ e he
      unfold CrossSection.entry at he
      split_ifs at he
      cases he; rfl
    rw [h1]
    constructor
    · intro e he
      by_contra hne
      have hex : ∃ a ∈ ts, ∃ e, xs.entry u sigma a = .error e := by
        by_contra hno
        push Not at hno
        obtain ⟨ys, hys⟩ := mapM_exists_ok (xs.entry u sigma) ts (fun a ha => by
          cases hq : xs.entry u sigma a with
          | error e => exact absurd hq (hno a ha e)
          | ok b => exact ⟨b, rfl⟩)
        rw [hys] at he; cases he
      obtain ⟨e', h2, h3⟩ := mapM_raises (xs.entry u sigma) (· = Err.nonFinite) ts hall hex
      rw [h2] at he; cases he; exact hne h3
    · rintro ⟨t, ht, h0⟩
      obtain ⟨e', h2, rfl⟩ := mapM_raises (xs.entry u sigma) (· = Err.nonFinite) ts hall
        ⟨t, ht, .nonFinite, by unfold CrossSection.entry; rw [if_pos h0]⟩
      exact h2
  have hsig : ∀ r : Reaction, ∃ sigma, tGridKeV.mapM (r.crossSection u m).call = .ok sigma := by
    intro r
    obtain ⟨m1, m2, m5⟩ := hd.mass r
    have hcall := fun e he1 he2 => call_ok u _ _ m1 m2 m5 _ (fileRows_ok r) e he1 he2
    rw [← crossSection_eq] at hcall
    exact ⟨_, mapM_of_ok _ _ _ (fun e he => (hcall e (tGrid_mem e he).1 (tGrid_mem e he).2).1)⟩
  have hpsi : fm.psiNorm p.1 p.2 ∈ List.zipWith fm.psiNorm
      (sampleSpace2d Real.pi fm.lcfsX fm.lcfsZ fm.inside fm.oX fm.oZ L).x
      (sampleSpace2d Real.pi fm.lcfsX fm.lcfsZ fm.inside fm.oX fm.oZ L).z := by
    simp only [sampleSpace2d]
    rw [List.zipWith_map, List.zipWith_self, List.mem_map]
    exact ⟨p, hp, rfl⟩
  unfold makeSource Source.init
  rw [hst]
  simp only [Bind.bind, Except.bind, Transport.view]
  generalize sampleSpace2d Real.pi fm.lcfsX fm.lcfsZ fm.inside fm.oX fm.oZ L = smp at hpsi ⊢
  generalize List.zipWith fm.psiNorm smp.x smp.z = psis at hpsi ⊢
  obtain ⟨temp, htemp⟩ := mapM_exists_ok tr.temperature.value psis
    (fun a _ => ⟨_, (hT a).choose_spec.1⟩)
  obtain ⟨nd, hnd'⟩ := mapM_exists_ok tr.deuterium.value psis (fun a _ => hnd a)
  obtain ⟨nt, hnt'⟩ := mapM_exists_ok tr.tritium.value psis (fun a _ => hnt a)
  obtain ⟨nh, hnh'⟩ := mapM_exists_ok tr.helium3.value psis (fun a _ => hnh a)
  rw [htemp, hnd', hnt', hnh']
  simp only
  have hcoldT : ∃ t ∈ temp, t ≤ 0 := by
    obtain ⟨i, hi, he⟩ := List.mem_iff_getElem.1 hpsi
    have hl := mapM_length htemp
    have := mapM_get htemp i hi (by omega)
    rw [he] at this
    exact ⟨_, List.getElem_mem _, hcold _ this⟩
  have h960 : ∀ t ∈ temp, t ≤ 960 := by
    intro t ht
    obtain ⟨a, -, ha⟩ := mapM_mem htemp t ht
    obtain ⟨T, e, hT'⟩ := hT a
    rw [e] at ha; cases ha; exact hT'
  have hne : temp ≠ [] := by
    obtain ⟨t, ht, -⟩ := hcoldT
    exact List.ne_nil_of_mem ht
  rw [foldlM_addReaction_error (reactivity u m .AUTO) nd nt nh temp smp.dVolume .nonFinite st _ rfl rfl
    ?_ ?_]
  · intro r _ e he
    cases hb : r.boschHale with
    | none => simp only [reactivity, hb] at he; exact (hx _ temp (hsig r)).1 e he
    | some b =>
      simp only [reactivity, hb] at he
      have hbh : hasBoschHale r = true := by
        rcases r with (_ | _ | _) | (_ | _) <;> simp_all [hasBoschHale, Reaction.boschHale]
      rw [channel_ok r hbh temp hne (fun t ht _ => h960 t ht)] at he
      cases he
  · exact ⟨.TT, hTT, (hx _ temp (hsig .TT)).2 hcoldT⟩

/-! ## A concrete plasma -/
namespace Ex

/-- CODATA / AME constants. -/
def si : SI := ⟨1.602176634e-16, 1.66053906660e-27⟩
def massesR : Masses ℝ :=
  ⟨2.01410177812, 3.0160492779, 4.002602, 3.0160293201, 1.00866491588, 1.007276466621,
    5.48579909065e-4⟩

theorem good_constants : GoodConstants si massesR 1.4924180856e-10 where
  data := by constructor <;> norm_num [si, massesR]
  c_pos := by norm_num
  exothermic := by
    rintro ((_ | _ | _) | (_ | _)) <;> norm_num [massDefect, massesR]

/-- A plasma of major radius 9 m with 25 keV in the core, 50:50 D-T fuel, a default source of 2 GW: whatever
the interpolator returns between the flux surfaces, it is built and exported. -/
example : ∃ fm : ParamMap, ∀ psi : ℝ → ℝ → ℝ, ∃ tr s rings files,
    makeSource si massesR 1.4924180856e-10 tr (fm.view psi) .none 0.1 (some 2e9) .AUTO = .ok s ∧
    s.totalPower (totalEnergy massesR 1.4924180856e-10) = 2e9 ∧
    s.toOpenmcSource .AUTO = .ok rings ∧ s.toSdef "out" = .ok files ∧
    files.map (·.reaction) = [.DT, .DDn, .TT] := by
  obtain ⟨l, hl⟩ := (C39_accepted (9 : ℝ) 0 3 1.7 0.3 0.5 0).2 (by norm_num [abs_of_pos])
  obtain ⟨fm, hfm, -⟩ := C48_labels .fausser l [0, 0.5, 1] 50 (by norm_num) ⟨1, by simp, by norm_num⟩
    .linear
  refine ⟨fm, fun psi => ?_⟩
  obtain ⟨comp, hcomp, -⟩ := (C31_fractions (1 : ℝ) 1 0).2.1 (by norm_num)
  obtain ⟨h', ref, tr, -, -, hg, hT, hb⟩ := C70_pedestal .AUTO [.DT, .DDn, .DDp, .TT]
    [⟨.pedestal 25 5 0.1 1.5 2 0.9, 1⟩, ⟨.pedestal 1e20 8e19 3e19 1 2 0.9, 1⟩] 0 1
    25 5 0.1 1.5 2 0.9 1e20 8e19 3e19 1 2 0.9 rfl rfl (by norm_num) (by norm_num) (by norm_num)
    (by norm_num) 1 1 0 (by norm_num) (by norm_num) (by norm_num) comp hcomp
  obtain ⟨s, rings, files, h1, h2, h3, -, h5, h6⟩ := C70_exports good_constants .AUTO .none
    [.DT, .DDn, .DDp, .TT] C01_default tr hg
    (fun rho T e => ⟨by linarith [(hT rho T e).1], by linarith [(hT rho T e).2]⟩) fm
    ⟨.fausser, 9, 0, 3, 1.7, 0.3, 0.5, 0, l, [0, 0.5, 1], 50, .linear, .inl rfl, hl, by norm_num, hfm⟩ psi 0.1
    (by norm_num) .D_T (by simp [Reaction.DT]) (hb (by norm_num) (by norm_num) (by norm_num) _) 2e9
    (by norm_num) .AUTO (by decide) "out"
  exact ⟨tr, s, rings, files, h1, h2, h3, h5, h6⟩

end Ex
end
end TNS
