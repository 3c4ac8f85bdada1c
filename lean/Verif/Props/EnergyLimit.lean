import Verif.Props.EnergyLaw
import Verif.Props.FileLimit
/-
C108: the energies and the starting points of the neutrons that OpenMC samples tend together to those of the plasma.
-/

set_option autoImplicit false

namespace TNS
open Spec Filter Topology MeasureTheory
noncomputable section

section
variable {u : SI} {m : Masses ℝ} {c : ℝ} {tr : Transport} {T : ℝ → ℝ} {n : Species → ℝ → ℝ}
  {method : ReactivityMethod} {st : List Reaction}

theorem energies_of (hc : GoodConstants u m c) (arg : SourceArg)
    (hst : parseSourceType arg = .ok st) (hv : ProfilesAre tr T n)
    (hp : ContinuousPlasma method st T n) (hT : ∀ rho, 0 < T rho ∧ T rho ≤ 40) (fm : ParamMap) (hfm : Roomy fm)
    (psi : ℝ → ℝ → ℝ)
    (hpsi : ContinuousOn (fun p : ℝ × ℝ => psi p.1 p.2) {p | containsPoint fm.lcfs p = true})
    (r0 : Reaction) (hr0 : r0 ∈ st) (hy : 0 < neutronYield r0) (hb : Burns tr r0 (psi fm.oPoint.x fm.oPoint.z))
    (P : ℝ) (hP : 0 < P) (spec : SpectrumMethod)
    (hspec : spec = .DATA → ∀ r ∈ st, 0 < neutronYield r → r = .n .T_T)
    (f : ℝ → ℝ × ℝ → ℝ) (hf : Continuous fun q : ℝ × ℝ × ℝ => f q.1 q.2) (C : ℝ) (hC : ∀ E p, |f E p| ≤ C * (1 + E ^ 2)) :
    ∃ (s : ℝ → Source ℝ) (rings : ℝ → List (Ring ℝ NeutronDist)),
      (∀ L > 0, makeSource u m c tr (fm.view psi) arg L (some P) method = .ok (s L) ∧
        (s L).toOpenmcSource spec = .ok (rings L)) ∧
      0 < plasmaNeutrons u m method T n psi {p | containsPoint fm.lcfs p = true} st (fun _ _ _ => 1) ∧
      Tendsto (fun L => openmcMean (fun d p => energyMean (fun E => f E p) d) (rings L)) (𝓝[>] 0)
        (𝓝 (plasmaNeutrons u m method T n psi {p | containsPoint fm.lcfs p = true} st
            (fun r t p => energyMean (fun E => f E p) (publishedLaw spec r t)) /
          plasmaNeutrons u m method T n psi {p | containsPoint fm.lcfs p = true} st (fun _ _ _ => 1))) := by
  classical
  have hcase : ∀ r ∈ st, 0 < neutronYield r → ∃ q : Neutronic, r = .n q ∧ (spec ≠ .DATA ∨ q = .T_T) := by
    intro r hr h
    cases r with
    | n q =>
      refine ⟨q, rfl, ?_⟩
      by_cases hs : spec = .DATA
      · exact Or.inr (by have := hspec hs _ hr h; cases this; rfl)
      · exact Or.inl hs
    | a q => cases q <;> simp [neutronYield] at h
  have hex : ∀ r ∈ st, 0 < neutronYield r → ∀ t, 0 < t → t ≤ 40 → ∃ d, neutronEnergySpectrum spec r t = .ok d := by
    intro r hr h t h0 h1
    obtain ⟨q, rfl, hq⟩ := hcase r hr h
    obtain ⟨d, hd, -⟩ := C69_distribution q t h0 h1 spec (fun e => hq.resolve_left fun k => k e)
    exact ⟨d, hd⟩
  set sp : Reaction → ℝ → NeutronDist := fun r t =>
    if h : ∃ d, neutronEnergySpectrum spec r t = .ok d then h.choose else .normal 0 1 with hspd
  have hsp : ∀ r ∈ st, 0 < neutronYield r → ∀ t, 0 < t → t ≤ 40 → neutronEnergySpectrum spec r t = .ok (sp r t) := by
    intro r hr h t h0 h1
    have := hex r hr h t h0 h1
    simp only [hspd]
    rw [dif_pos this]
    exact this.choose_spec
  have hlaw : ∀ r ∈ st, 0 < neutronYield r → ∀ t, 0 < t → t ≤ 40 → ∀ p : ℝ × ℝ,
      energyMean (fun E => f E p) (sp r t) = energyMean (fun E => f E p) (publishedLaw spec r t) := by
    intro r hr h t h0 h1 p
    obtain ⟨q, rfl, hq⟩ := hcase r hr h
    exact law_of _ spec q t h0 h1 hq _ (hsp _ hr h t h0 h1)
  obtain ⟨s, rings, h1, h2, h3⟩ := openmc_of hc arg hst hv hp fm hfm psi hpsi r0 hr0 hy hb P hP
    (neutronEnergySpectrum spec) sp (fun r hr h rho => hsp r hr h _ (hT rho).1 (hT rho).2)
    (fun d p => energyMean (fun E => f E p) d) (by
      intro r hr h
      obtain ⟨q, rfl, hq⟩ := hcase r hr h
      refine ((publishedLaw_continuousOn f hf C hC spec q).mono ?_).congr ?_
      · rintro ⟨t, p⟩ ⟨⟨rho, rfl⟩, -⟩
        exact ⟨hT rho, trivial⟩
      · rintro ⟨t, p⟩ ⟨⟨rho, rfl⟩, -⟩
        exact hlaw _ hr h _ (hT rho).1 (hT rho).2 p)
  refine ⟨s, rings, h1, h2, ?_⟩
  have e : plasmaNeutrons u m method T n psi {p | containsPoint fm.lcfs p = true} st
        (fun r t p => energyMean (fun E => f E p) (sp r t)) =
      plasmaNeutrons u m method T n psi {p | containsPoint fm.lcfs p = true} st
        (fun r t p => energyMean (fun E => f E p) (publishedLaw spec r t)) := by
    unfold plasmaNeutrons
    refine congrArg List.sum (List.map_congr_left fun r hr => ?_)
    rcases Nat.eq_zero_or_pos (neutronYield r) with h0 | h0
    · simp [h0]
    · simp only [hlaw r hr h0 _ (hT _).1 (hT _).2]
  rw [← e]
  exact h3

/-- **C108**: let the profiles be continuous with ion temperatures in (0, 40] keV and let the fuel of a channel that makes
neutrons burn on the magnetic axis. With any spectrum method for which the channels have spectra, the source is built and
exported to OpenMC for every cell size; and as the cells shrink, the energies and the starting points of the neutrons that
OpenMC samples tend together to those of the neutrons of the plasma, with the published spectra at the local ion
temperature: the mean of any continuous function of both that grows at most quadratically with the energy tends to its mean
over the plasma. -/
theorem C108_openmc (hc : GoodConstants u m c) (arg : SourceArg)
    (hst : parseSourceType arg = .ok st) (hv : ProfilesAre tr T n)
    (hp : ContinuousPlasma method st T n) (hT : ∀ rho, 0 < T rho ∧ T rho ≤ 40) (fm : ParamMap) (hfm : PlasmaMap fm)
    (psi : ℝ → ℝ → ℝ)
    (hpsi : ContinuousOn (fun p : ℝ × ℝ => psi p.1 p.2) {p | containsPoint fm.lcfs p = true})
    (r0 : Reaction) (hr0 : r0 ∈ st) (hy : 0 < neutronYield r0) (hb : Burns tr r0 (psi fm.oPoint.x fm.oPoint.z))
    (P : ℝ) (hP : 0 < P) (spec : SpectrumMethod)
    (hspec : spec = .DATA → ∀ r ∈ st, 0 < neutronYield r → r = .n .T_T) :
    ∃ (s : ℝ → Source ℝ) (rings : ℝ → List (Ring ℝ NeutronDist)),
      (∀ L > 0, makeSource u m c tr (fm.view psi) arg L (some P) method = .ok (s L) ∧
        (s L).toOpenmcSource spec = .ok (rings L)) ∧
      0 < plasmaNeutrons u m method T n psi {p | containsPoint fm.lcfs p = true} st (fun _ _ _ => 1) ∧
      ∀ f : ℝ → ℝ × ℝ → ℝ, Continuous (fun q : ℝ × ℝ × ℝ => f q.1 q.2) → (∃ C, ∀ E p, |f E p| ≤ C * (1 + E ^ 2)) →
        Tendsto (fun L => openmcMean (fun d p => energyMean (fun E => f E p) d) (rings L)) (𝓝[>] 0)
          (𝓝 (plasmaNeutrons u m method T n psi {p | containsPoint fm.lcfs p = true} st
              (fun r t p => energyMean (fun E => f E p) (publishedLaw spec r t)) /
            plasmaNeutrons u m method T n psi {p | containsPoint fm.lcfs p = true} st (fun _ _ _ => 1))) := by
  have all := fun (f : ℝ → ℝ × ℝ → ℝ) (hf : Continuous fun q : ℝ × ℝ × ℝ => f q.1 q.2) (C : ℝ)
      (hC : ∀ E p, |f E p| ≤ C * (1 + E ^ 2)) =>
    energies_of hc arg hst hv hp hT fm (plasmaMap_roomy hfm) psi hpsi r0 hr0 hy hb P hP spec hspec f hf C hC
  obtain ⟨s, rings, hs, hpos, -⟩ := all (fun _ _ => 0) continuous_const 0 (by simp)
  refine ⟨s, rings, hs, hpos, fun f hf ⟨C, hC⟩ => ?_⟩
  obtain ⟨s', rings', hs', -, hlim⟩ := all f hf C hC
  refine hlim.congr' ?_
  filter_upwards [self_mem_nhdsWithin] with L hL
  obtain ⟨a1, a2⟩ := hs L hL
  obtain ⟨b1, b2⟩ := hs' L hL
  rw [a1] at b1
  rw [← Except.ok.inj b1, a2] at b2
  rw [Except.ok.inj b2]

end

section
variable {u : SI} {m : Masses ℝ} {c : ℝ} (hc : GoodConstants u m c) (spline : List ℝ → ℝ × ℝ → ℝ)
  (hcont : ∀ data, Continuous (spline data))
  (method : ReactivityMethod) (arg : SourceArg) {st : List Reaction} (hst : parseSourceType arg = .ok st)
  (frames : List (JspFrame ℝ)) (n : ℤ) (hn : -1 ≤ n ∧ n < frames.length) {f : JspFrame ℝ}
  (hf : jspSelected frames n = some f) (hg : GoodFrame f) (hfu : FuelledFrame f)
  (eq : EqdskFile) (heq : GoodEqdsk eq) (ha : AxisClear eq) (conv : FluxConvention)
  {r0 : Reaction} (hr0 : r0 ∈ st) (hy : 0 < neutronYield r0) {P : ℝ} (hP : 0 < P)

include hc hcont hst hn hf hg hfu heq ha hr0 hy hP

/-- **C108**, from EQDSK and JETTO files with ion temperatures up to 40 keV. -/
theorem C108_files (h40 : ∀ t ∈ f.ti, t ≤ 40000) (spec : SpectrumMethod)
    (hspec : spec = .DATA → ∀ r ∈ st, 0 < neutronYield r → r = .n .T_T) :
    ∃ tr T dens fm, ∃ (s : ℝ → Source ℝ) (rings : ℝ → List (Ring ℝ NeutronDist)),
      Transport.fromJetto frames n = .ok tr ∧ Interpolates f T dens ∧ (fromEqdsk spline eq conv).2 = .ok fm ∧
      (∀ L > 0, makeSource u m c tr (fm.view spline) arg L (some P) method = .ok (s L) ∧
        (s L).toOpenmcSource spec = .ok (rings L)) ∧
      0 < plasmaNeutrons u m method T dens (fm.value spline) {p | Odd (winding p eq.bdry)} st (fun _ _ _ => 1) ∧
      ∀ g : ℝ → ℝ × ℝ → ℝ, Continuous (fun q : ℝ × ℝ × ℝ => g q.1 q.2) → (∃ C, ∀ E p, |g E p| ≤ C * (1 + E ^ 2)) →
        Tendsto (fun L => openmcMean (fun d p => energyMean (fun E => g E p) d) (rings L)) (𝓝[>] 0)
          (𝓝 (plasmaNeutrons u m method T dens (fm.value spline) {p | Odd (winding p eq.bdry)} st
              (fun r t p => energyMean (fun E => g E p) (publishedLaw spec r t)) /
            plasmaNeutrons u m method T dens (fm.value spline) {p | Odd (winding p eq.bdry)} st (fun _ _ _ => 1))) := by
  obtain ⟨tr, T, dens, htr, hpr, hcp, hint⟩ := C82_transport method st frames n hn f hf hg
  obtain ⟨fm, hfm, pm, hroom, -, -, -, hview, hset⟩ := eqdsk_roomy spline eq heq ha conv
  have all := fun (g : ℝ → ℝ × ℝ → ℝ) (hgc : Continuous fun q : ℝ × ℝ × ℝ => g q.1 q.2) (C : ℝ)
      (hC : ∀ E p, |g E p| ≤ C * (1 + E ^ 2)) =>
    energies_of hc arg hst hpr hcp (frame_warm hg h40 hint) pm hroom (fm.value spline)
    (((hcont fm.psiNorm).continuousOn) : ContinuousOn (fun p : ℝ × ℝ => fm.value spline p.1 p.2) _)
    r0 hr0 hy (frame_burns hg hfu hpr hint hy _) P hP spec hspec g hgc C hC
  obtain ⟨s, rings, hs, hpos, -⟩ := all (fun _ _ => 0) continuous_const 0 (by simp)
  simp only [hset] at hpos
  refine ⟨tr, T, dens, fm, s, rings, htr, hint, hfm, fun L hL => by rw [hview]; exact hs L hL, hpos, fun g hgc ⟨C, hC⟩ => ?_⟩
  obtain ⟨s', rings', hs', -, hlim⟩ := all g hgc C hC
  simp only [hset] at hlim
  refine hlim.congr' ?_
  filter_upwards [self_mem_nhdsWithin] with L hL
  obtain ⟨a1, a2⟩ := hs L hL
  obtain ⟨b1, b2⟩ := hs' L hL
  rw [a1] at b1
  rw [← Except.ok.inj b1, a2] at b2
  rw [Except.ok.inj b2]

end

theorem table_weight (keV : List (ℝ × ℝ)) (h : IsSpectrum keV) :
    energyMean (fun _ => 1) (.tabular (keV.map (fun p => (1000 * p.1, p.2)))) = 1 := by
  have hs : (keV.map (fun p : ℝ × ℝ => (1000 * p.1, p.2))).Pairwise (fun p q => p.1 < q.1) := by
    rw [List.pairwise_map]
    exact h.sorted.imp fun k => by linarith
  have ha : area (keV.map (fun p : ℝ × ℝ => (1000 * p.1, p.2))) = 1000 := by rw [area_stretch, h.unit, mul_one]
  simp only [energyMean]
  rw [← area_eq_moment _ hs, ha, div_self (by norm_num)]

/-- **C108**, the published distributions are probability distributions: at every temperature up to 40 keV, with every method
for which the reaction has a spectrum, the mean of 1 is 1. -/
theorem C108_weight (method : SpectrumMethod) (r : Neutronic) (t : ℝ) (ht : 0 < t) (h40 : t ≤ 40)
    (hm : method ≠ .DATA ∨ r = .T_T) :
    energyMean (fun _ => 1) (publishedLaw method (.n r) t) = 1 := by
  obtain ⟨d, hd, h⟩ := C69_distribution r t ht h40 method (fun e => hm.resolve_left fun k => k e)
  rw [← law_of _ method r t ht h40 hm d hd]
  cases h with
  | modified c keV _ _ _ _ _ h => exact table_weight keV h
  | data keV w _ _ _ h => exact table_weight keV h
  | normal _ _ hs =>
    rw [normal_standard _ _ _ (by linarith)]
    simp only [one_mul]
    rw [integral_const_mul]
    have := integral_gaussian (1 / 2)
    simp only [show ∀ x : ℝ, -(1 / 2 : ℝ) * x ^ 2 = -(x ^ 2 / 2) from fun x => by ring] at this
    rw [this, show Real.pi / (1 / 2) = 2 * Real.pi by ring]
    have : 0 < Real.sqrt (2 * Real.pi) := Real.sqrt_pos.2 (by positivity)
    field_simp

/-- The default source of a plasma from files at 500 MW, with T-T and tabulated spectra: as the cells shrink, the mean
energy (eV) of the neutrons that OpenMC samples tends to that of the plasma. -/
example : ∃ tr T dens fm, ∃ (s : ℝ → Source ℝ) (rings : ℝ → List (Ring ℝ NeutronDist)),
    Transport.fromJetto [Ex.frame] (-1) = .ok tr ∧ (fromEqdsk twoPoint Ex.eqdsk .sqrt).2 = .ok fm ∧
    (∀ L > 0, makeSource Ex.si Ex.massesR 1.4924180856e-10 tr (fm.view twoPoint) .none L (some 5e8) .AUTO = .ok (s L) ∧
      (s L).toOpenmcSource .AUTO = .ok (rings L)) ∧
    Tendsto (fun L => openmcMean (fun d _ => energyMean (fun E => E) d) (rings L)) (𝓝[>] 0)
      (𝓝 (plasmaNeutrons Ex.si Ex.massesR .AUTO T dens (fm.value twoPoint) {p | Odd (winding p Ex.eqdsk.bdry)}
          [.DT, .DDn, .DDp, .TT] (fun r t _ => energyMean (fun E => E) (publishedLaw .AUTO r t)) /
        plasmaNeutrons Ex.si Ex.massesR .AUTO T dens (fm.value twoPoint) {p | Odd (winding p Ex.eqdsk.bdry)}
          [.DT, .DDn, .DDp, .TT] (fun _ _ _ => 1))) := by
  obtain ⟨tr, T, dens, fm, s, rings, h1, -, h3, h4, -, h6⟩ :=
    C108_files Ex.good_constants twoPoint (fun data => by unfold twoPoint; fun_prop) .AUTO .none C01_default [Ex.frame] (-1) (by simp)
      (f := Ex.frame) rfl Ex.good_frame Ex.fuelled Ex.eqdsk Ex.good_eqdsk Ex.axis_clear .sqrt (r0 := .DT) (by simp)
      (by simp [neutronYield]) (P := 5e8) (by norm_num) (by norm_num [Ex.frame]) .AUTO (by simp)
  refine ⟨tr, T, dens, fm, s, rings, h1, h3, h4, h6 (fun E _ => E) (by fun_prop) ⟨1, fun E _ => ?_⟩⟩
  rw [one_mul, abs_le]
  constructor <;> nlinarith [sq_nonneg (E - 1), sq_nonneg (E + 1)]

end
end TNS
