import Verif.Spec.FileLimit
import Verif.Props.FileWorkflow
import Verif.Props.SourceLimit
/-
C105: from EQDSK and JETTO files to the neutrons that the transport codes start, as the cells shrink.
-/

set_option autoImplicit false

namespace TNS
open Spec Filter Topology MeasureTheory
noncomputable section

/-! ## Room around the axis -/

theorem eventually_below (p : ℝ × ℝ) (h : ℝ) :
    ∀ᶠ q in 𝓝[{q : ℝ × ℝ | q.2 ≤ p.2}] p, decide (q.2 ≤ h) = decide (p.2 ≤ h) := by
  by_cases hp : p.2 ≤ h
  · filter_upwards [self_mem_nhdsWithin] with q hq
    have hq : q.2 ≤ p.2 := hq
    simp [hp, hq.trans hp]
  · have hp' := not_le.1 hp
    have : ∀ᶠ q in 𝓝 p, h < q.2 := continuous_snd.continuousAt.eventually_const_lt hp'
    filter_upwards [this.filter_mono nhdsWithin_le_nhds] with q hq
    simp [not_le.2 hp', not_le.2 hq]

theorem crosses_below (p a b : ℝ × ℝ) (hs : p ∉ segment ℝ a b) :
    ∀ᶠ q in 𝓝[{q : ℝ × ℝ | q.2 ≤ p.2}] p, crosses q a b = crosses p a b := by
  have e1 := eventually_below p a.2
  have e2 := eventually_below p b.2
  by_cases hd : decide (p.2 ≤ a.2) = decide (p.2 ≤ b.2)
  · filter_upwards [e1, e2] with q h1 h2
    simp [crosses, h1, h2, hd]
  · have hne : (b.1 - p.1) * (a.2 - b.2) ≠ (b.2 - p.2) * (a.1 - b.1) := by
      intro h0
      apply hs
      have hab : b.2 - a.2 ≠ 0 := by
        intro h
        rw [show a.2 = b.2 by linarith] at hd
        exact hd rfl
      set t := (p.2 - a.2) / (b.2 - a.2) with ht
      have htz : a.2 + t * (b.2 - a.2) = p.2 := by rw [ht]; field_simp; ring
      have htx : a.1 + t * (b.1 - a.1) = p.1 := by
        have : (a.1 + t * (b.1 - a.1) - p.1) * (b.2 - a.2) = 0 := by
          have e : t * (b.2 - a.2) = p.2 - a.2 := by linarith
          calc (a.1 + t * (b.1 - a.1) - p.1) * (b.2 - a.2)
              = (a.1 - p.1) * (b.2 - a.2) + (t * (b.2 - a.2)) * (b.1 - a.1) := by ring
            _ = 0 := by rw [e]; linarith
        rcases mul_eq_zero.1 this with h | h
        · linarith
        · exact absurd h hab
      have h01 : 0 ≤ t ∧ t ≤ 1 := by
        rcases lt_or_gt_of_ne hab with h | h
        · have k : ¬ (a.2 < p.2) := by
            intro k
            have k2 : ¬ p.2 ≤ b.2 := by intro k3; linarith
            exact hd (by simp [k, k2, not_le.2 k, not_le.1 k2])
          have k2 : b.2 ≤ p.2 := by
            by_contra k3
            have k3 := not_le.1 k3
            exact hd (by simp [k3.le, not_lt.1 k])
          exact ⟨div_nonneg_of_nonpos (by linarith [not_lt.1 k]) h.le, (div_le_one_of_neg h).2 (by linarith)⟩
        · have k : a.2 ≤ p.2 := by
            by_contra k3
            have k3 := not_le.1 k3
            have : p.2 ≤ b.2 := by linarith
            exact hd (by simp [k3.le, this])
          have k2 : p.2 ≤ b.2 := by
            by_contra k3
            have : ¬ p.2 ≤ a.2 := by intro k4; linarith [not_le.1 k3]
            exact hd (by simp [k3, this])
          exact ⟨div_nonneg (by linarith) h.le, (div_le_one h).2 (by linarith)⟩
      rw [segment_eq_image']
      refine ⟨t, h01, ?_⟩
      ext
      · simpa using htx
      · simpa using htz
    have e3 : ∀ᶠ q in 𝓝 p, decide ((b.1 - q.1) * (a.2 - b.2) ≤ (b.2 - q.2) * (a.1 - b.1)) =
        decide ((b.1 - p.1) * (a.2 - b.2) ≤ (b.2 - p.2) * (a.1 - b.1)) := by
      have cf : Continuous fun q : ℝ × ℝ => (b.1 - q.1) * (a.2 - b.2) := by fun_prop
      have cg : Continuous fun q : ℝ × ℝ => (b.2 - q.2) * (a.1 - b.1) := by fun_prop
      rcases lt_or_gt_of_ne hne with h | h
      · filter_upwards [cf.continuousAt.eventually_lt cg.continuousAt h] with q hq
        simp [hq.le, h.le]
      · filter_upwards [cg.continuousAt.eventually_lt cf.continuousAt h] with q hq
        simp [not_le.2 hq, not_le.2 h]
    filter_upwards [e1, e2, e3.filter_mono nhdsWithin_le_nhds] with q h1 h2 h3
    rw [crosses, crosses, h1, h2, h3]

theorem pathEdges_cases (l : List (ℝ × ℝ)) (hc : l.head? = l.getLast?) (e : (ℝ × ℝ) × (ℝ × ℝ)) (he : e ∈ pathEdges l) :
    e.1 = e.2 ∨ ∃ i, l[i]? = some e.1 ∧ l[i + 1]? = some e.2 := by
  cases l with
  | nil => simp [pathEdges] at he
  | cons a l =>
    obtain ⟨i, hi, hie⟩ := List.mem_iff_getElem.1 he
    simp only [pathEdges, List.length_zip, List.length_cons, List.length_append, List.length_nil] at hi
    simp only [pathEdges, List.getElem_zip] at hie
    rw [← hie]
    have hi1 : i < (a :: l).length := by simp; omega
    rcases Nat.lt_or_ge i l.length with h | h
    · right
      refine ⟨i, List.getElem?_eq_getElem _, ?_⟩
      rw [List.getElem?_cons_succ, List.getElem_append_left h, List.getElem?_eq_getElem h]
    · left
      have hil : i = l.length := by omega
      have h2 : (l ++ [a])[i]'(by simp; omega) = a := by
        rw [List.getElem_append_right (by omega)]
        simp
      have h1 : (a :: l)[i]'hi1 = a := by
        have : (a :: l).getLast? = some ((a :: l)[i]'hi1) := by
          rw [List.getLast?_eq_getElem?]
          simp only [List.length_cons, Nat.add_sub_cancel, ← hil]
          exact List.getElem?_eq_getElem _
        rw [← hc] at this
        simpa using this.symm
      simp only [h1, h2]

/-- A point inside a polygon that is not on its edges has a half disc inside around it. -/
theorem inside_roomy (pts : List (ℝ × ℝ)) (hc : pts.head? = pts.getLast?) (p : ℝ × ℝ)
    (hoff : ∀ (i : ℕ) (a b : ℝ × ℝ), pts[i]? = some a → pts[i + 1]? = some b → p ∉ segment ℝ a b)
    (hin : containsPoint pts p = true) :
    ∃ ε > 0, ∀ x z : ℝ, |x - p.1| < ε → p.2 - ε < z → z ≤ p.2 → containsPoint pts (x, z) = true := by
  have hev : ∀ᶠ q in 𝓝[{q : ℝ × ℝ | q.2 ≤ p.2}] p, ∀ e ∈ pathEdges pts, crosses q e.1 e.2 = crosses p e.1 e.2 := by
    refine (eventually_all_finite (List.finite_toSet (pathEdges pts))).2 fun e he => ?_
    rcases pathEdges_cases pts hc e he with h | ⟨i, h1, h2⟩
    · refine Eventually.of_forall fun q => ?_
      rw [h]
      simp [crosses]
    · exact crosses_below p e.1 e.2 (hoff i e.1 e.2 h1 h2)
  rw [eventually_nhdsWithin_iff, Metric.eventually_nhds_iff] at hev
  obtain ⟨ε, hε, h⟩ := hev
  refine ⟨ε, hε, fun x z hx hz hz' => ?_⟩
  have hq := h (y := (x, z)) (by
    rw [Prod.dist_eq, Real.dist_eq, Real.dist_eq]
    refine max_lt hx ?_
    rw [abs_lt]
    constructor <;> simp only <;> linarith) hz'
  unfold containsPoint at hin ⊢
  rw [foldl_xor_congr (fun e : (ℝ × ℝ) × (ℝ × ℝ) => crosses (x, z) e.1 e.2)
      (fun e : (ℝ × ℝ) × (ℝ × ℝ) => crosses p e.1 e.2) _ hq]
  exact hin

/-- The flux map of a good file whose axis is clear of the boundary. -/
theorem eqdsk_roomy (spline : List ℝ → ℝ × ℝ → ℝ) (f : EqdskFile) (hf : GoodEqdsk f) (ha : AxisClear f)
    (conv : FluxConvention) :
    ∃ m, (fromEqdsk spline f conv).2 = .ok m ∧ ∃ fm : ParamMap, Roomy fm ∧ fm.lcfs = f.bdry ∧ fm.oPoint.x = f.xmag ∧
      fm.oPoint.z = f.zmag ∧ m.view spline = fm.view (m.value spline) ∧
      {p | containsPoint fm.lcfs p = true} = {p | Odd (winding p f.bdry)} := by
  obtain ⟨m, hm, -, -, -, fm, hpl, hb, ox, oz, hview⟩ := eqdsk_placed spline f hf conv
  refine ⟨m, hm, fm, ⟨hpl, ?_, ?_⟩, hb, ox, oz, hview, ?_⟩
  · rw [hb]; exact hf.radius
  · have hin := hpl.2
    rw [hb, ox, oz] at hin ⊢
    exact inside_roomy f.bdry hf.closed (f.xmag, f.zmag) ha hin
  · ext p
    show containsPoint fm.lcfs p = true ↔ Odd (winding p f.bdry)
    rw [hb]
    exact C65_winding f.bdry hf.closed hf.points p

theorem positive_lower (vs : List ℝ) (hvs : ∀ v ∈ vs, 0 < v) : ∃ lo hi : ℝ, 0 < lo ∧ ∀ v ∈ vs, lo ≤ v ∧ v ≤ hi := by
  have : ∃ lo : ℝ, 0 < lo ∧ ∀ v ∈ vs, lo ≤ v := by
    induction vs with
    | nil => exact ⟨1, one_pos, by simp⟩
    | cons a l ih =>
      obtain ⟨lo, l1, l2⟩ := ih (fun v hv => hvs v (List.mem_cons_of_mem _ hv))
      refine ⟨min a lo, lt_min (hvs a List.mem_cons_self) l1, fun v hv => ?_⟩
      rcases List.mem_cons.1 hv with rfl | hv
      · exact min_le_left _ _
      · exact (min_le_right _ _).trans (l2 v hv)
  obtain ⟨lo, h0, h1⟩ := this
  exact ⟨lo, vs.sum, h0, fun v hv => ⟨h1 v hv, List.single_le_sum (fun v hv => (hvs v hv).le) v hv⟩⟩

/-- Every channel that makes neutrons burns everywhere. -/
theorem frame_burns {f : JspFrame ℝ} (hg : GoodFrame f) (hfu : FuelledFrame f) {tr : Transport} {T : ℝ → ℝ}
    {dens : Species → ℝ → ℝ} (hpr : ProfilesAre tr T dens) (hint : Interpolates f T dens) {r : Reaction}
    (hy : 0 < neutronYield r) (rho : ℝ) : Burns tr r rho := by
  obtain ⟨lT, uT, lT0, hT⟩ := positive_lower f.ti fun t h => (hg.ti_range t h).1
  obtain ⟨ld, ud, ld0, hd'⟩ := positive_lower f.nd hfu.1
  obtain ⟨lt, ut, lt0, ht'⟩ := positive_lower f.nt hfu.2
  constructor
  · intro t e
    rw [hpr.temperature] at e
    cases e
    exact lt_of_lt_of_le (by positivity) (hint.T_between lT uT hT rho).1
  · intro t e _
    rw [hpr.deuterium] at e
    cases e
    exact lt_of_lt_of_le ld0 (hint.d_between ld ud hd' rho).1
  · intro t e _
    rw [hpr.tritium] at e
    cases e
    exact lt_of_lt_of_le lt0 (hint.t_between lt ut ht' rho).1
  · intro t e h
    cases r with
    | n q => cases q <;> simp [reactants] at h
    | a q => cases q <;> simp [neutronYield] at hy

theorem frame_warm {f : JspFrame ℝ} (hg : GoodFrame f) (h40 : ∀ t ∈ f.ti, t ≤ 40000) {T : ℝ → ℝ}
    {dens : Species → ℝ → ℝ} (hint : Interpolates f T dens) (rho : ℝ) : 0 < T rho ∧ T rho ≤ 40 := by
  obtain ⟨lT, uT, lT0, hT⟩ := positive_lower f.ti fun t h => (hg.ti_range t h).1
  have := hint.T_between lT 40000 (fun t h => ⟨(hT t h).1, h40 t h⟩) rho
  exact ⟨lt_of_lt_of_le (by positivity) this.1, this.2.trans (by norm_num)⟩

/-! ## The limits -/

section
variable {u : SI} {m : Masses ℝ} {c : ℝ} (hc : GoodConstants u m c) (spline : List ℝ → ℝ × ℝ → ℝ)
  (hcont : ∀ data, Continuous (spline data))
  (method : ReactivityMethod) (arg : SourceArg) {st : List Reaction} (hst : parseSourceType arg = .ok st)
  (frames : List (JspFrame ℝ)) (n : ℤ) (hn : -1 ≤ n ∧ n < frames.length) {f : JspFrame ℝ}
  (hf : jspSelected frames n = some f) (hg : GoodFrame f) (hfu : FuelledFrame f)
  (eq : EqdskFile) (heq : GoodEqdsk eq) (ha : AxisClear eq) (conv : FluxConvention)
  {r0 : Reaction} (hr0 : r0 ∈ st) (hy : 0 < neutronYield r0) {P : ℝ} (hP : 0 < P)

include hc hcont hst hn hf hg hfu heq ha hr0 hy hP

/-- **C105**, rates: a source built from files and normalised to the power `P` tends, as the cells shrink, to the plasma whose
reaction rates are in the ratio of the volume integrals over the inside of the boundary and add up to the power `P`. -/
theorem C105_rates :
    ∃ tr T dens fm, ∃ (s : ℝ → Source ℝ) (W : ℝ), Transport.fromJetto frames n = .ok tr ∧ Interpolates f T dens ∧
      (fromEqdsk spline eq conv).2 = .ok fm ∧
      (∀ L > 0, makeSource u m c tr (fm.view spline) arg L (some P) method = .ok (s L)) ∧ 0 < W ∧
      W = (st.map (fun r => plasmaRate u m method T dens (fm.value spline) {p | Odd (winding p eq.bdry)} r *
        totalEnergy m c r)).sum ∧
      ∀ r ∈ st,
        Tendsto (fun L => (s L).numReactions.getD r 0) (𝓝[>] 0)
          (𝓝 (P / W * plasmaRate u m method T dens (fm.value spline) {p | Odd (winding p eq.bdry)} r)) ∧
        Tendsto (fun L => (s L).numNeutrons.getD r 0) (𝓝[>] 0)
          (𝓝 (P / W * plasmaRate u m method T dens (fm.value spline) {p | Odd (winding p eq.bdry)} r *
            (neutronYield r : ℝ))) := by
  obtain ⟨tr, T, dens, htr, hpr, hcp, hint⟩ := C82_transport method st frames n hn f hf hg
  obtain ⟨fm, hfm, pm, hroom, -, -, -, hview, hset⟩ := eqdsk_roomy spline eq heq ha conv
  obtain ⟨s, W, hW, hWe, hs, hlim⟩ := normalised_of hc arg hst hpr hcp pm hroom (fm.value spline)
    (((hcont fm.psiNorm).continuousOn) : ContinuousOn (fun p : ℝ × ℝ => fm.value spline p.1 p.2) _)
    r0 hr0 (frame_burns hg hfu hpr hint hy _) P hP
  simp only [hset] at hWe hlim
  exact ⟨tr, T, dens, fm, s, W, htr, hint, hfm, fun L hL => by rw [hview]; exact hs L hL, hW, hWe, hlim⟩

/-- **C105**, OpenMC: the mean of any quantity `phi` of a neutron that depends continuously on the temperature at which its
spectrum is taken and on its starting point, over the neutrons that OpenMC samples from the exported sources, tends to its
mean over the neutrons of the plasma in the files. -/
theorem C105_openmc {E : Type} (spectrum : Reaction → ℝ → Except Err E) (sp : Reaction → ℝ → E)
    (hsp : ∀ r ∈ st, 0 < neutronYield r → ∀ t, 0 < t → t ≤ 960 → spectrum r t = .ok (sp r t))
    (phi : E → ℝ × ℝ → ℝ)
    (hphi : ∀ r ∈ st, 0 < neutronYield r →
      ContinuousOn (fun q : ℝ × ℝ × ℝ => phi (sp r q.1) q.2) (Set.Ioc 0 960 ×ˢ Set.univ)) :
    ∃ tr T dens fm, ∃ (s : ℝ → Source ℝ) (rings : ℝ → List (Ring ℝ E)),
      Transport.fromJetto frames n = .ok tr ∧ Interpolates f T dens ∧ (fromEqdsk spline eq conv).2 = .ok fm ∧
      (∀ L > 0, makeSource u m c tr (fm.view spline) arg L (some P) method = .ok (s L) ∧
        (s L).toOpenmc spectrum = .ok (rings L)) ∧
      0 < plasmaNeutrons u m method T dens (fm.value spline) {p | Odd (winding p eq.bdry)} st (fun _ _ _ => 1) ∧
      Tendsto (fun L => openmcMean phi (rings L)) (𝓝[>] 0)
        (𝓝 (plasmaNeutrons u m method T dens (fm.value spline) {p | Odd (winding p eq.bdry)} st
            (fun r t p => phi (sp r t) p) /
          plasmaNeutrons u m method T dens (fm.value spline) {p | Odd (winding p eq.bdry)} st (fun _ _ _ => 1))) := by
  obtain ⟨tr, T, dens, htr, hpr, hcp, hint⟩ := C82_transport method st frames n hn f hf hg
  obtain ⟨fm, hfm, pm, hroom, -, -, -, hview, hset⟩ := eqdsk_roomy spline eq heq ha conv
  have hT : ∀ rho, 0 < T rho ∧ T rho ≤ 960 := by
    intro rho
    obtain ⟨lT, uT, lT0, hT⟩ := positive_lower f.ti fun t h => (hg.ti_range t h).1
    have := hint.T_between lT 960000 (fun t h => ⟨(hT t h).1, (hg.ti_range t h).2⟩) rho
    exact ⟨lt_of_lt_of_le (by positivity) this.1, this.2.trans (by norm_num)⟩
  obtain ⟨s, rings, hs, hpos, hlim⟩ := openmc_of hc arg hst hpr hcp pm hroom (fm.value spline)
    (((hcont fm.psiNorm).continuousOn) : ContinuousOn (fun p : ℝ × ℝ => fm.value spline p.1 p.2) _)
    r0 hr0 hy (frame_burns hg hfu hpr hint hy _) P hP spectrum sp
    (fun r hr h rho => hsp r hr h _ (hT rho).1 (hT rho).2) phi
    (fun r hr h => (hphi r hr h).mono (by
      rintro ⟨t, p⟩ ⟨⟨rho, rfl⟩, -⟩
      exact ⟨hT rho, trivial⟩))
  simp only [hset] at hpos hlim
  exact ⟨tr, T, dens, fm, s, rings, htr, hint, hfm, fun L hL => by rw [hview]; exact hs L hL, hpos, hlim⟩

/-- **C105**, starting points in OpenMC, with the energy spectra of the package (ion temperatures up to 40 keV). -/
theorem C105_positions (h40 : ∀ t ∈ f.ti, t ≤ 40000) (spec : SpectrumMethod) (hspec : spec ≠ .DATA) :
    ∃ tr T dens fm, ∃ (s : ℝ → Source ℝ) (rings : ℝ → List (Ring ℝ NeutronDist)),
      Transport.fromJetto frames n = .ok tr ∧ Interpolates f T dens ∧ (fromEqdsk spline eq conv).2 = .ok fm ∧
      (∀ L > 0, makeSource u m c tr (fm.view spline) arg L (some P) method = .ok (s L) ∧
        (s L).toOpenmcSource spec = .ok (rings L)) ∧
      0 < plasmaNeutrons u m method T dens (fm.value spline) {p | Odd (winding p eq.bdry)} st (fun _ _ _ => 1) ∧
      ∀ g : ℝ × ℝ → ℝ, Continuous g → Tendsto (fun L => openmcMean (fun _ p => g p) (rings L)) (𝓝[>] 0)
        (𝓝 (plasmaNeutrons u m method T dens (fm.value spline) {p | Odd (winding p eq.bdry)} st (fun _ _ p => g p) /
          plasmaNeutrons u m method T dens (fm.value spline) {p | Odd (winding p eq.bdry)} st (fun _ _ _ => 1))) := by
  obtain ⟨tr, T, dens, htr, hpr, hcp, hint⟩ := C82_transport method st frames n hn f hf hg
  obtain ⟨fm, hfm, pm, hroom, -, -, -, hview, hset⟩ := eqdsk_roomy spline eq heq ha conv
  have all := fun (g : ℝ × ℝ → ℝ) (hgc : Continuous g) =>
    positions_of hc arg hst hpr hcp (frame_warm hg h40 hint) pm hroom (fm.value spline)
    (((hcont fm.psiNorm).continuousOn) : ContinuousOn (fun p : ℝ × ℝ => fm.value spline p.1 p.2) _)
    r0 hr0 hy (frame_burns hg hfu hpr hint hy _) P hP spec hspec g hgc
  obtain ⟨s, rings, hs, hpos, -⟩ := all (fun _ => 0) continuous_const
  simp only [hset] at hpos
  refine ⟨tr, T, dens, fm, s, rings, htr, hint, hfm, fun L hL => by rw [hview]; exact hs L hL, hpos, fun g hgc => ?_⟩
  obtain ⟨s', rings', hs', -, hlim⟩ := all g hgc
  simp only [hset] at hlim
  refine hlim.congr' ?_
  filter_upwards [self_mem_nhdsWithin] with L hL
  obtain ⟨a1, a2⟩ := hs L hL
  obtain ⟨b1, b2⟩ := hs' L hL
  rw [a1] at b1
  rw [← Except.ok.inj b1, a2] at b2
  show _ = openmcMean (fun _ p => g p) (rings L)
  rw [Except.ok.inj b2]

/-- **C105**, energies in OpenMC: with Gaussian spectra and no T-T channel, also the published mean and standard deviation of
the neutron energy at the local ion temperature. -/
theorem C105_gaussian (htt : Reaction.n .T_T ∉ st) (h40 : ∀ t ∈ f.ti, t ≤ 40000) (F : ℝ → ℝ → ℝ × ℝ → ℝ)
    (hF : ContinuousOn (fun q : ℝ × ℝ × ℝ × ℝ => F q.1 q.2.1 q.2.2) {q | 0 < q.2.1}) :
    ∃ tr T dens fm, ∃ (s : ℝ → Source ℝ) (rings : ℝ → List (Ring ℝ NeutronDist)),
      Transport.fromJetto frames n = .ok tr ∧ Interpolates f T dens ∧ (fromEqdsk spline eq conv).2 = .ok fm ∧
      (∀ L > 0, makeSource u m c tr (fm.view spline) arg L (some P) method = .ok (s L) ∧
        (s L).toOpenmcSource .BALLABIO_GAUSSIAN = .ok (rings L)) ∧
      0 < plasmaNeutrons u m method T dens (fm.value spline) {p | Odd (winding p eq.bdry)} st (fun _ _ _ => 1) ∧
      Tendsto (fun L => openmcMean (ofNormal F) (rings L)) (𝓝[>] 0)
        (𝓝 (plasmaNeutrons u m method T dens (fm.value spline) {p | Odd (winding p eq.bdry)} st (ofPublished F) /
          plasmaNeutrons u m method T dens (fm.value spline) {p | Odd (winding p eq.bdry)} st (fun _ _ _ => 1))) := by
  obtain ⟨tr, T, dens, htr, hpr, hcp, hint⟩ := C82_transport method st frames n hn f hf hg
  obtain ⟨fm, hfm, pm, hroom, -, -, -, hview, hset⟩ := eqdsk_roomy spline eq heq ha conv
  obtain ⟨s, rings, hs, hpos, hlim⟩ := gaussian_of hc arg hst htt hpr hcp (frame_warm hg h40 hint) pm hroom (fm.value spline)
    (((hcont fm.psiNorm).continuousOn) : ContinuousOn (fun p : ℝ × ℝ => fm.value spline p.1 p.2) _)
    r0 hr0 hy (frame_burns hg hfu hpr hint hy _) P hP F hF
  simp only [hset] at hpos hlim
  exact ⟨tr, T, dens, fm, s, rings, htr, hint, hfm, fun L hL => by rw [hview]; exact hs L hL, hpos, hlim⟩

end

/-! ### A plasma that meets the hypotheses -/

namespace Ex

theorem axis_clear : AxisClear eqdsk := by
  intro i a b h1 h2 hs
  rw [segment_eq_image'] at hs
  obtain ⟨t, -, ht⟩ := hs
  have hx : a.1 + t * (b.1 - a.1) = 3 := by simpa [eqdsk] using congrArg Prod.fst ht
  have hz : a.2 + t * (b.2 - a.2) = 0 := by simpa [eqdsk] using congrArg Prod.snd ht
  match i with
  | 0 => simp [eqdsk] at h1 h2; subst h1 h2; simp at hx hz; norm_num [hz] at hx
  | 1 => simp [eqdsk] at h1 h2; subst h1 h2; norm_num at hx hz; norm_num [hx] at hz
  | 2 => simp [eqdsk] at h1 h2; subst h1 h2; simp at hx hz; norm_num [hz] at hx
  | 3 => simp [eqdsk] at h1 h2; subst h1 h2; norm_num at hx hz; norm_num [hx] at hz
  | i + 4 => simp [eqdsk] at h2

theorem fuelled : FuelledFrame frame := by
  constructor <;> norm_num [frame]

end Ex

/-- The default source of that plasma at 500 MW: as the cells shrink, the mean radius at which OpenMC starts neutrons tends
to that of the plasma. -/
example : ∃ tr T dens fm, ∃ (s : ℝ → Source ℝ) (rings : ℝ → List (Ring ℝ NeutronDist)),
    Transport.fromJetto [Ex.frame] (-1) = .ok tr ∧ (fromEqdsk twoPoint Ex.eqdsk .sqrt).2 = .ok fm ∧
    (∀ L > 0, makeSource Ex.si Ex.massesR 1.4924180856e-10 tr (fm.view twoPoint) .none L (some 5e8) .AUTO = .ok (s L) ∧
      (s L).toOpenmcSource .AUTO = .ok (rings L)) ∧
    Tendsto (fun L => openmcMean (fun _ p => p.1) (rings L)) (𝓝[>] 0)
      (𝓝 (plasmaNeutrons Ex.si Ex.massesR .AUTO T dens (fm.value twoPoint) {p | Odd (winding p Ex.eqdsk.bdry)}
          [.DT, .DDn, .DDp, .TT] (fun _ _ p => p.1) /
        plasmaNeutrons Ex.si Ex.massesR .AUTO T dens (fm.value twoPoint) {p | Odd (winding p Ex.eqdsk.bdry)}
          [.DT, .DDn, .DDp, .TT] (fun _ _ _ => 1))) := by
  obtain ⟨tr, T, dens, fm, s, rings, h1, -, h3, h4, -, h6⟩ :=
    C105_positions Ex.good_constants twoPoint (fun data => by unfold twoPoint; fun_prop) .AUTO .none C01_default [Ex.frame] (-1) (by simp)
      (f := Ex.frame) rfl Ex.good_frame Ex.fuelled Ex.eqdsk Ex.good_eqdsk Ex.axis_clear .sqrt (r0 := .DT) (by simp)
      (by simp [neutronYield]) (P := 5e8) (by norm_num) (by norm_num [Ex.frame]) .AUTO (by simp)
  exact ⟨tr, T, dens, fm, s, rings, h1, h3, h4, h6 Prod.fst continuous_fst⟩

end
end TNS
