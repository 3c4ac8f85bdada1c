import Verif.Spec.SdefLimit
import Verif.Props.SourceLimit
import Verif.Props.SauterSource
import Verif.Props.Mcnp
/-
C98: as the cells shrink, the source that MCNP samples from the SDEF files tends to the neutron source of the plasma.
-/

set_option autoImplicit false

namespace TNS
open Spec Filter Topology MeasureTheory
noncomputable section

/-! ## One file -/

theorem uniformMean_eq (g : ℝ × ℝ → ℝ) {rLo rHi zLo zHi : ℝ} :
    uniformMean g rLo rHi zLo zHi = boxMean g rLo rHi 1 1 zLo zHi := by
  have ht : ∀ x, tabularDensity rLo rHi 1 1 x = 1 := by
    intro x; unfold tabularDensity; simp
  unfold uniformMean boxMean
  simp only [ht, one_mul, intervalIntegral.integral_const, smul_eq_mul, mul_one]

/-- The mean over the bin of the cell of side `L` centred at `p`. -/
def binMean (g : ℝ × ℝ → ℝ) (L : ℝ) (p : ℝ × ℝ) : ℝ :=
  uniformMean g (100 * (p.1 - L / 2)) (100 * (p.1 + L / 2)) (100 * (p.2 - L / 2)) (100 * (p.2 + L / 2))

theorem binMean_average : CellAverage binMean := by
  intro g hg L ω p hL hp hω hc
  unfold binMean
  rw [uniformMean_eq]
  refine boxMean_close hg (by linarith) (by linarith) zero_le_one one_pos hω ?_
  intro x z x1 x2 z1 z2
  refine hc _ ?_ ?_
  · rw [abs_le]; constructor <;> simp only <;> linarith
  · rw [abs_le]; constructor <;> simp only <;> linarith

theorem cellBins_mean (g : ℝ × ℝ → ℝ) (pts : List (ℝ × ℝ)) (L k : ℝ) (hk : 0 < k) (w : ℝ × ℝ → ℝ) :
    ((cellBins (pts.map Prod.fst) (pts.map Prod.snd) L (pts.map fun p => k * w p)).map fun b =>
      b.prob * uniformMean g b.rLo b.rHi b.zLo b.zHi).sum =
    (pts.map fun p => w p * binMean g L p).sum / (pts.map w).sum := by
  unfold cellBins
  have hz : List.zip (pts.map Prod.fst) (List.zip (pts.map Prod.snd) (pts.map fun p => k * w p)) =
      pts.map fun p => (p.1, p.2, k * w p) := by
    rw [List.zip_map', List.zip_map']
  rw [hz, List.map_map, List.map_map, List.sum_map_mul_left, div_eq_mul_inv (pts.map fun p => w p * binMean g L p).sum,
    ← List.sum_map_mul_right]
  congr 1
  refine List.map_congr_left ?_
  intro p _
  simp only [Function.comp_apply, binMean]
  rw [mul_div_mul_left _ _ hk.ne']
  ring

/-- For every plasma map: the bins on the cards are the cells. -/
theorem plasmaMap_bins {fm : ParamMap} (h : PlasmaMap fm) (L : ℝ) (hL : 0 < L) (data : List ℝ)
    (hd : data.length = (samplePoints (fm.lcfs.map Prod.fst) (fm.lcfs.map Prod.snd) (containsPoint fm.lcfs)
      fm.oPoint.x fm.oPoint.z L).length) (hpos : ∀ s ∈ data, 0 ≤ s) :
    ∃ c, sdefCards ((samplePoints (fm.lcfs.map Prod.fst) (fm.lcfs.map Prod.snd) (containsPoint fm.lcfs)
        fm.oPoint.x fm.oPoint.z L).map Prod.fst) ((samplePoints (fm.lcfs.map Prod.fst) (fm.lcfs.map Prod.snd)
        (containsPoint fm.lcfs) fm.oPoint.x fm.oPoint.z L).map Prod.snd) L data = .ok c ∧
      sdefBins c = cellBins ((samplePoints (fm.lcfs.map Prod.fst) (fm.lcfs.map Prod.snd) (containsPoint fm.lcfs)
        fm.oPoint.x fm.oPoint.z L).map Prod.fst) ((samplePoints (fm.lcfs.map Prod.fst) (fm.lcfs.map Prod.snd)
        (containsPoint fm.lcfs) fm.oPoint.x fm.oPoint.z L).map Prod.snd) L data := by
  obtain ⟨p, r0, z0, aspect, kappa, delta, shift, sq, l, rho, n, conv, hp, hl, hn, hm⟩ := h
  have hrho : ∃ r ∈ rho, 0 < r := by
    by_contra hno
    push Not at hno
    have he : rho.filter (fun r => decide (r > 0)) = [] := by
      rw [List.filter_eq_nil_iff]
      intro a ha
      simpa using hno a ha
    obtain ⟨pts, hpts, -⟩ := C42_closed p l 1 n (by omega)
    simp [fromParameterisation, he, hpts, Bind.bind, Except.bind, Pure.pure, Except.pure] at hm
  obtain ⟨m, hm', hs, ho, -⟩ := C48_labels p l rho n (by omega) hrho conv
  rw [hm] at hm'
  cases hm'
  rw [lcfs_fausser p _ _ _ _ _ _ _ l hp hl] at hs
  rw [ho] at hd ⊢
  exact C25_fausser _ _ _ _ _ _ _ l hl n hn _ hs L hL data hd hpos

section limit
variable {u : SI} {m : Masses ℝ} {method : ReactivityMethod} {st : List Reaction} {tr : Transport}
  {T : ℝ → ℝ} {n : Species → ℝ → ℝ}

/-- What the files say, in terms of the plasma. -/
theorem sdef_formula {c : ℝ} (hc : GoodConstants u m c) (arg : SourceArg)
    (hst : parseSourceType arg = .ok st) (hv : ProfilesAre tr T n)
    (hp : ContinuousPlasma method st T n) (fm : ParamMap) (hfm : PlasmaMap fm) (psi : ℝ → ℝ → ℝ)
    (r0 : Reaction) (hr0 : r0 ∈ st) (hb : Burns tr r0 (psi fm.oPoint.x fm.oPoint.z))
    (P : ℝ) (hP : 0 < P) (stub : String) (L : ℝ) (hL : 0 < L) :
    ∃ s k files, makeSource u m c tr (fm.view psi) arg L (some P) method = .ok s ∧ 0 < k ∧
      s.toSdef stub = .ok files ∧ (files.map (·.reaction)) = st.filter (fun r => decide (0 < neutronYield r)) ∧
      (files.map (·.name)).Nodup ∧
      0 < ((samplePoints (fm.lcfs.map Prod.fst) (fm.lcfs.map Prod.snd) (containsPoint fm.lcfs) fm.oPoint.x
        fm.oPoint.z L).map fun p => localRate u m method T n r0 (psi p.1 p.2) * (2 * Real.pi * p.1 * L ^ 2)).sum ∧
      ∀ f ∈ files, f.reaction ∈ st ∧ (∀ g, mcnpMean g f.cards =
        ((samplePoints (fm.lcfs.map Prod.fst) (fm.lcfs.map Prod.snd) (containsPoint fm.lcfs) fm.oPoint.x
          fm.oPoint.z L).map fun p => localRate u m method T n f.reaction (psi p.1 p.2) * (2 * Real.pi * p.1 * L ^ 2) *
            binMean g L p).sum /
        ((samplePoints (fm.lcfs.map Prod.fst) (fm.lcfs.map Prod.snd) (containsPoint fm.lcfs) fm.oPoint.x
          fm.oPoint.z L).map fun p => localRate u m method T n f.reaction (psi p.1 p.2) *
            (2 * Real.pi * p.1 * L ^ 2)).sum) ∧
        f.total = k * ((samplePoints (fm.lcfs.map Prod.fst) (fm.lcfs.map Prod.snd) (containsPoint fm.lcfs) fm.oPoint.x
          fm.oPoint.z L).map fun p => localRate u m method T n f.reaction (psi p.1 p.2) *
            (2 * Real.pi * p.1 * L ^ 2)).sum ∧
        f.ionTemp = XF.fin (k * ((samplePoints (fm.lcfs.map Prod.fst) (fm.lcfs.map Prod.snd) (containsPoint fm.lcfs)
          fm.oPoint.x fm.oPoint.z L).map fun p => localRate u m method T n f.reaction (psi p.1 p.2) *
            (2 * Real.pi * p.1 * L ^ 2) * T (psi p.1 p.2)).sum) /
          XF.fin (k * ((samplePoints (fm.lcfs.map Prod.fst) (fm.lcfs.map Prod.snd) (containsPoint fm.lcfs)
          fm.oPoint.x fm.oPoint.z L).map fun p => localRate u m method T n f.reaction (psi p.1 p.2) *
            (2 * Real.pi * p.1 * L ^ 2)).sum) := by
  obtain ⟨s, k, hs, hphys, hty, hk, hx, hz, ht, hcl, hstr⟩ :=
    source_cells hc arg hst hv hp fm (plasmaMap_roomy hfm) psi r0 hr0 hb P hP L hL
  obtain ⟨-, s', -, -, hs', -, -, -, -, -, -, -, -, -, hnum⟩ :=
    C70_power hc method arg st hst tr (good_of_continuous hp hv) fm hfm psi L hL r0 hr0 hb P hP
  rw [hs] at hs'
  cases hs'
  obtain ⟨hnd, hkeys, _, _, hbook, _⟩ := C04_bookkeeping hphys.reachable
  obtain ⟨-, hph⟩ := hphys.phys
  have hsum : ∀ (r : Reaction) (pts : List (ℝ × ℝ)), (pts.map fun p => k * (localRate u m method T n r (psi p.1 p.2) *
      (2 * Real.pi * p.1 * L ^ 2))).sum = k * (pts.map fun p => localRate u m method T n r (psi p.1 p.2) *
      (2 * Real.pi * p.1 * L ^ 2)).sum := fun r pts => by rw [List.sum_map_mul_left]
  set pts := samplePoints (fm.lcfs.map Prod.fst) (fm.lcfs.map Prod.snd) (containsPoint fm.lcfs) fm.oPoint.x
    fm.oPoint.z L with hpts
  have hpos : 0 < (pts.map fun p => localRate u m method T n r0 (psi p.1 p.2) * (2 * Real.pi * p.1 * L ^ 2)).sum := by
    obtain ⟨cells, h1, h2, -⟩ := hbook r0 (hty ▸ hr0)
    rw [hstr r0 hr0] at h1
    cases h1
    unfold Dict.getD at hnum
    rw [h2, hsum] at hnum
    exact (mul_pos_iff_of_pos_left hk).1 hnum
  have hne : s.x ≠ [] := by
    rw [hx]
    intro e
    rw [List.map_eq_nil_iff] at e
    rw [e] at hpos
    simp at hpos
  obtain ⟨files, hfiles, hreact, -, hnames⟩ := C28_files hphys.reachable hne stub
  rw [hty] at hreact
  refine ⟨s, k, files, hs, hk, hfiles, hreact, hnames, hpos, ?_⟩
  intro f hf
  have hmem : f.reaction ∈ st := by
    have : f.reaction ∈ files.map (·.reaction) := List.mem_map.2 ⟨f, hf, rfl⟩
    rw [hreact] at this
    exact (List.mem_filter.1 this).1
  obtain ⟨p, hpm, he⟩ := mapM_mem hfiles f hf
  have hpm' := (List.mem_filter.1 hpm).1
  have hget : s.strength.get? p.1 = some p.2 := by
    obtain ⟨g, hcl'⟩ := reachable_closed hphys.reachable
    rw [hcl'.2.1] at hpm' ⊢
    obtain ⟨r, hrm, rfl⟩ := List.mem_map.1 hpm'
    rw [Dict.get?_map_pair, if_pos hrm]
  obtain ⟨cards, hcards, hbins⟩ := plasmaMap_bins hfm L hL p.2 (by
      have h1 := hph.len p.1 p.2 hget
      rw [h1, hx, List.length_map]) (hph.nonneg p.1 p.2 hget)
  rw [← hpts] at hcards hbins
  rw [hx, hz, hcl, hcards] at he
  simp only [Bind.bind, Except.bind] at he
  cases he
  have h2 : p.2 = pts.map fun q => k * (localRate u m method T n p.1 (psi q.1 q.2) * (2 * Real.pi * q.1 * L ^ 2)) := by
    rw [hstr p.1 hmem] at hget
    exact (Option.some.inj hget).symm
  refine ⟨hmem, ?_, ?_, ?_⟩
  · intro g
    unfold mcnpMean
    rw [hbins, h2]
    exact cellBins_mean g pts L k hk _
  · show headerTotal p.2 = _
    unfold headerTotal
    rw [h2, hsum]
  · show meanIonTemp p.2 s.temperature = _
    unfold meanIonTemp
    rw [h2, hsum, ht, List.zipWith_map, List.zipWith_self]
    congr 2
    rw [← List.sum_map_mul_left]
    congr 1
    refine List.map_congr_left ?_
    intro q _
    ring

theorem filter_yield (l : List Reaction) (f : Reaction → ℝ) :
    ((l.filter fun r => decide (0 < neutronYield r)).map fun r => (neutronYield r : ℝ) * f r).sum =
      (l.map fun r => (neutronYield r : ℝ) * f r).sum := by
  refine sum_filter_zero l _ _ ?_
  intro r _ h
  have : neutronYield r = 0 := by
    have := of_decide_eq_false h
    omega
  rw [this]; simp

/-- **C98**, one file: let the profiles be continuous and let the fuel of a channel that makes neutrons burn on the magnetic
axis. For every cell size the source is built and written to SDEF files, one of them for the channel. As the cells shrink,
the mean of any continuous function of the starting point over the neutrons that MCNP samples from that file tends to
its mean over the reactions of the channel in the plasma; and the ion temperature in the file, which gives the spectrum, is
finite and tends to the mean ion temperature of these reactions. -/
theorem C98_file {c : ℝ} (hc : GoodConstants u m c) (arg : SourceArg)
    (hst : parseSourceType arg = .ok st) (hv : ProfilesAre tr T n)
    (hp : ContinuousPlasma method st T n) (fm : ParamMap) (hfm : PlasmaMap fm) (psi : ℝ → ℝ → ℝ)
    (hpsi : ContinuousOn (fun p : ℝ × ℝ => psi p.1 p.2) {p | containsPoint fm.lcfs p = true})
    (r : Neutronic) (hr : .n r ∈ st) (hb : Burns tr (.n r) (psi fm.oPoint.x fm.oPoint.z))
    (P : ℝ) (hP : 0 < P) (stub : String) :
    ∃ (s : ℝ → Source ℝ) (files : ℝ → List (SdefFile ℝ)) (f : ℝ → SdefFile ℝ) (t : ℝ → ℝ),
      (∀ L > 0, makeSource u m c tr (fm.view psi) arg L (some P) method = .ok (s L) ∧
        (s L).toSdef stub = .ok (files L) ∧ f L ∈ files L ∧ (f L).reaction = .n r ∧
        (f L).name = stub ++ "." ++ sdefSuffix r ∧ (f L).ionTemp = .fin (t L)) ∧
      0 < plasmaRate u m method T n psi {p | containsPoint fm.lcfs p = true} (.n r) ∧
      (∀ g : ℝ × ℝ → ℝ, Continuous g → Tendsto (fun L => mcnpMean g (f L).cards) (𝓝[>] 0)
        (𝓝 (reactionMean u m method T n psi {p | containsPoint fm.lcfs p = true} (.n r) g))) ∧
      Tendsto t (𝓝[>] 0) (𝓝 (reactionMean u m method T n psi {p | containsPoint fm.lcfs p = true} (.n r)
        fun p => T (psi p.1 p.2))) := by
  set pts := fun L : ℝ => samplePoints (fm.lcfs.map Prod.fst) (fm.lcfs.map Prod.snd) (containsPoint fm.lcfs) fm.oPoint.x
    fm.oPoint.z L with hpts
  set w : ℝ → ℝ × ℝ → ℝ := fun L p => localRate u m method T n (.n r) (psi p.1 p.2) * (2 * Real.pi * p.1 * L ^ 2) with hw
  have hex : ∀ L : ℝ, ∃ (s : Source ℝ) (files : List (SdefFile ℝ)) (f : SdefFile ℝ), 0 < L →
      (makeSource u m c tr (fm.view psi) arg L (some P) method = .ok s ∧
        s.toSdef stub = .ok files ∧ f ∈ files ∧ f.reaction = .n r ∧
        f.name = stub ++ "." ++ sdefSuffix r ∧
        f.ionTemp = .fin (((pts L).map fun p => w L p * T (psi p.1 p.2)).sum / ((pts L).map (w L)).sum)) ∧
      (∀ g, mcnpMean g f.cards = ((pts L).map fun p => w L p * binMean g L p).sum / ((pts L).map (w L)).sum) := by
    have one : ∀ L : ℝ, 0 < L → ∃ (s : Source ℝ) (files : List (SdefFile ℝ)) (f : SdefFile ℝ),
      (makeSource u m c tr (fm.view psi) arg L (some P) method = .ok s ∧
        s.toSdef stub = .ok files ∧ f ∈ files ∧ f.reaction = .n r ∧
        f.name = stub ++ "." ++ sdefSuffix r ∧
        f.ionTemp = .fin (((pts L).map fun p => w L p * T (psi p.1 p.2)).sum / ((pts L).map (w L)).sum)) ∧
      (∀ g, mcnpMean g f.cards = ((pts L).map fun p => w L p * binMean g L p).sum / ((pts L).map (w L)).sum) := by
      intro L hL
      obtain ⟨s, k, files, hs, hk, hfiles, hreact, -, hpos, hform⟩ :=
        sdef_formula hc arg hst hv hp fm hfm psi (.n r) hr hb P hP stub L hL
      have hm : (Reaction.n r) ∈ files.map (·.reaction) := by
        rw [hreact, List.mem_filter]
        exact ⟨hr, by cases r <;> simp [neutronYield]⟩
      obtain ⟨f, hf, hfr⟩ := List.mem_map.1 hm
      obtain ⟨-, h1, -, h3⟩ := hform f hf
      rw [hfr] at h1 h3
      have hname : f.name = stub ++ "." ++ sdefSuffix r := by
        obtain ⟨p, hpm, he⟩ := mapM_mem hfiles f hf
        simp only [Bind.bind, Except.bind] at he
        split at he
        · cases he
        cases he
        have hfr : p.1 = .n r := hfr
        show sdefFileName stub p.1 = _
        rw [hfr, sdefFileName_eq]
      refine ⟨s, files, f, ⟨hs, hfiles, hf, hfr, hname, ?_⟩, h1⟩
      rw [h3]
      have hdiv : ∀ a b : ℝ, b ≠ 0 → (XF.fin a / XF.fin b) = XF.fin (a / b) := by
        intro a b hb
        show XF.div _ _ = _
        simp [XF.div, hb]
      rw [hdiv _ _ (mul_pos hk hpos).ne', mul_div_mul_left _ _ hk.ne']
    intro L
    by_cases hL : 0 < L
    · obtain ⟨s, files, f, h⟩ := one L hL
      exact ⟨s, files, f, fun _ => h⟩
    · obtain ⟨s, files, f, h⟩ := one 1 one_pos
      exact ⟨s, files, f, fun h => absurd h hL⟩
  choose s files f hs using hex
  have hpos := plasmaRate_pos hc.data hv hp fm (plasmaMap_roomy hfm) psi hpsi (.n r) hr hb
  have hden : Tendsto (fun L : ℝ => ((pts L).map (w L)).sum) (𝓝[>] 0)
      (𝓝 (plasmaRate u m method T n psi {p | containsPoint fm.lcfs p = true} (.n r))) :=
    rate_limit hc.data hv hp fm psi hpsi (.n r) hr _ _
  refine ⟨s, files, f, fun L => ((pts L).map fun p => w L p * T (psi p.1 p.2)).sum / ((pts L).map (w L)).sum,
    fun L hL => (hs L hL).1, hpos, ?_, ?_⟩
  · intro g hg
    have hnum := channel_limit binMean_average hc.data hv hp fm (plasmaMap_roomy hfm) psi hpsi (.n r) hr (fun _ p => g p)
      (by fun_prop) fm.oPoint.x fm.oPoint.z
    refine (hnum.div hden hpos.ne').congr' ?_
    filter_upwards [self_mem_nhdsWithin] with L hL
    exact ((hs L hL).2 g).symm
  · have hM : CellAverage fun g _ p => g p := by
      intro g _ L ω p _ _ hω _
      simpa using hω
    have hnum := channel_limit hM hc.data hv hp fm (plasmaMap_roomy hfm) psi hpsi (.n r) hr (fun t _ => t)
      (by fun_prop) fm.oPoint.x fm.oPoint.z
    exact hnum.div hden hpos.ne'

/-- **C98**, all files: the files together, each taken with the share of the neutrons that its header gives, tend to the
neutrons of the plasma: the mean of any continuous function of the starting point tends to the limit that it has for the
exported OpenMC source (`C96_positions`). -/
theorem C98_run {c : ℝ} (hc : GoodConstants u m c) (arg : SourceArg)
    (hst : parseSourceType arg = .ok st) (hv : ProfilesAre tr T n)
    (hp : ContinuousPlasma method st T n) (fm : ParamMap) (hfm : PlasmaMap fm) (psi : ℝ → ℝ → ℝ)
    (hpsi : ContinuousOn (fun p : ℝ × ℝ => psi p.1 p.2) {p | containsPoint fm.lcfs p = true})
    (r0 : Reaction) (hr0 : r0 ∈ st) (hy : 0 < neutronYield r0) (hb : Burns tr r0 (psi fm.oPoint.x fm.oPoint.z))
    (P : ℝ) (hP : 0 < P) (stub : String) :
    ∃ (s : ℝ → Source ℝ) (files : ℝ → List (SdefFile ℝ)),
      (∀ L > 0, makeSource u m c tr (fm.view psi) arg L (some P) method = .ok (s L) ∧
        (s L).toSdef stub = .ok (files L)) ∧
      0 < plasmaNeutrons u m method T n psi {p | containsPoint fm.lcfs p = true} st (fun _ _ _ => 1) ∧
      ∀ g : ℝ × ℝ → ℝ, Continuous g → Tendsto (fun L => mcnpRunMean g (files L)) (𝓝[>] 0)
        (𝓝 (plasmaNeutrons u m method T n psi {p | containsPoint fm.lcfs p = true} st (fun _ _ p => g p) /
          plasmaNeutrons u m method T n psi {p | containsPoint fm.lcfs p = true} st (fun _ _ _ => 1))) := by
  set pts := fun L : ℝ => samplePoints (fm.lcfs.map Prod.fst) (fm.lcfs.map Prod.snd) (containsPoint fm.lcfs) fm.oPoint.x
    fm.oPoint.z L with hpts
  set w : Reaction → ℝ → ℝ × ℝ → ℝ := fun r L p =>
    localRate u m method T n r (psi p.1 p.2) * (2 * Real.pi * p.1 * L ^ 2) with hw
  have hw0 : ∀ r ∈ st, ∀ L, ∀ p ∈ pts L, 0 ≤ w r L p := by
    intro r hr L p hpp
    have h1 := (plasmaMap_data hfm).1 p (List.mem_filter.1 hpp).2
    have := Real.pi_pos
    exact mul_nonneg (localRate_nonneg hc.data hp r hr _) (by positivity)
  have hex : ∀ L : ℝ, ∃ (s : Source ℝ) (files : List (SdefFile ℝ)), 0 < L →
      (makeSource u m c tr (fm.view psi) arg L (some P) method = .ok s ∧ s.toSdef stub = .ok files) ∧
      (∀ g, mcnpRunMean g files =
        (st.map fun r => (neutronYield r : ℝ) * ((pts L).map fun p => w r L p * binMean g L p).sum).sum /
        (st.map fun r => (neutronYield r : ℝ) * ((pts L).map (w r L)).sum).sum) := by
    have one : ∀ L : ℝ, 0 < L → ∃ (s : Source ℝ) (files : List (SdefFile ℝ)),
      (makeSource u m c tr (fm.view psi) arg L (some P) method = .ok s ∧ s.toSdef stub = .ok files) ∧
      (∀ g, mcnpRunMean g files =
        (st.map fun r => (neutronYield r : ℝ) * ((pts L).map fun p => w r L p * binMean g L p).sum).sum /
        (st.map fun r => (neutronYield r : ℝ) * ((pts L).map (w r L)).sum).sum) := by
      intro L hL
      obtain ⟨s, k, files, hs, hk, hfiles, hreact, -, hpos, hform⟩ :=
        sdef_formula hc arg hst hv hp fm hfm psi r0 hr0 hb P hP stub L hL
      refine ⟨s, files, ⟨hs, hfiles⟩, fun g => ?_⟩
      have htot : (files.map sdefNeutrons).sum =
          k * (st.map fun r => (neutronYield r : ℝ) * ((pts L).map (w r L)).sum).sum := by
        rw [← filter_yield, ← hreact, List.map_map, ← List.sum_map_mul_left]
        congr 1
        refine List.map_congr_left ?_
        intro f hf
        obtain ⟨-, -, h2, -⟩ := hform f hf
        simp only [sdefNeutrons, h2, Function.comp_apply]
        ring
      unfold mcnpRunMean sdefWeight
      rw [htot]
      clear htot
      generalize (st.map fun r => (neutronYield r : ℝ) * ((pts L).map (w r L)).sum).sum = D
      rw [div_eq_mul_inv (st.map fun r => (neutronYield r : ℝ) *
        ((pts L).map fun p => w r L p * binMean g L p).sum).sum, ← filter_yield, ← hreact, List.map_map,
        ← List.sum_map_mul_right]
      congr 1
      refine List.map_congr_left ?_
      intro f hf
      obtain ⟨hm, h1, h2, -⟩ := hform f hf
      simp only [sdefNeutrons, h2, h1 g, Function.comp_apply]
      change (neutronYield f.reaction : ℝ) * (k * ((pts L).map (w f.reaction L)).sum) / _ *
        (((pts L).map fun p => w f.reaction L p * binMean g L p).sum / ((pts L).map (w f.reaction L)).sum) = _
      rcases eq_or_ne ((pts L).map (w f.reaction L)).sum 0 with h0 | h0
      · have hz : ∀ p ∈ pts L, w f.reaction L p = 0 := by
          intro p hpp
          refine le_antisymm ?_ (hw0 _ hm L p hpp)
          rw [← h0]
          exact List.single_le_sum (by
            intro a ha
            obtain ⟨q, hq, rfl⟩ := List.mem_map.1 ha
            exact hw0 _ hm L q hq) _ (List.mem_map.2 ⟨p, hpp, rfl⟩)
        have e : ((pts L).map fun p => w f.reaction L p * binMean g L p) = (pts L).map fun _ => (0 : ℝ) :=
          List.map_congr_left fun p hpp => by rw [hz p hpp, zero_mul]
        rw [h0, e]; simp
      · rcases eq_or_ne D 0 with hD | hD
        · rw [hD]; simp
        · field_simp
    intro L
    by_cases hL : 0 < L
    · obtain ⟨s, files, h⟩ := one L hL
      exact ⟨s, files, fun _ => h⟩
    · obtain ⟨s, files, h⟩ := one 1 one_pos
      exact ⟨s, files, fun h => absurd h hL⟩
  choose s files hs using hex
  have hden : plasmaNeutrons u m method T n psi {p | containsPoint fm.lcfs p = true} st (fun _ _ _ => 1) =
      (st.map fun r => (neutronYield r : ℝ) * plasmaRate u m method T n psi {p | containsPoint fm.lcfs p = true} r).sum := by
    unfold plasmaNeutrons plasmaRate
    simp only [one_mul]
  have hpos : 0 < plasmaNeutrons u m method T n psi {p | containsPoint fm.lcfs p = true} st (fun _ _ _ => 1) := by
    rw [hden]
    have h1 : 0 < (neutronYield r0 : ℝ) * plasmaRate u m method T n psi {p | containsPoint fm.lcfs p = true} r0 :=
      mul_pos (by exact_mod_cast hy) (plasmaRate_pos hc.data hv hp fm (plasmaMap_roomy hfm) psi hpsi r0 hr0 hb)
    refine h1.trans_le (List.single_le_sum (fun x hx => ?_) _ (List.mem_map.2 ⟨r0, hr0, rfl⟩))
    obtain ⟨r, hr, rfl⟩ := List.mem_map.1 hx
    exact mul_nonneg (Nat.cast_nonneg _) (plasmaRate_nonneg hc.data hp fm (plasmaMap_roomy hfm) psi r hr)
  refine ⟨s, files, fun L hL => (hs L hL).1, hpos, ?_⟩
  intro g hg
  have hnum : Tendsto (fun L : ℝ => (st.map fun r => (neutronYield r : ℝ) *
        ((pts L).map fun p => w r L p * binMean g L p).sum).sum) (𝓝[>] 0)
      (𝓝 (plasmaNeutrons u m method T n psi {p | containsPoint fm.lcfs p = true} st (fun _ _ p => g p))) := by
    unfold plasmaNeutrons
    refine tendsto_listSum st _ _ _ ?_
    intro r hr
    exact tendsto_const_nhds.mul (channel_limit binMean_average hc.data hv hp fm (plasmaMap_roomy hfm) psi hpsi r hr (fun _ p => g p)
        (by fun_prop) _ _)
  have hdenl : Tendsto (fun L : ℝ => (st.map fun r => (neutronYield r : ℝ) * ((pts L).map (w r L)).sum).sum) (𝓝[>] 0)
      (𝓝 (plasmaNeutrons u m method T n psi {p | containsPoint fm.lcfs p = true} st (fun _ _ _ => 1))) := by
    rw [hden]
    refine tendsto_listSum st _ _ _ ?_
    intro r hr
    exact tendsto_const_nhds.mul (rate_limit hc.data hv hp fm psi hpsi r hr _ _)
  refine (hnum.div hdenl hpos.ne').congr' ?_
  filter_upwards [self_mem_nhdsWithin] with L hL
  exact ((hs L hL).2 g).symm

end limit

/-! ### The hypotheses are met -/

namespace Ex

/-- A 9 m plasma at 2 GW, with any continuous flux: as the cells shrink, the mean radius (m) at which MCNP starts D-T
neutrons and the ion temperature in the D-T file have limits. -/
example : ∃ fm : ParamMap, PlasmaMap fm ∧ ∀ psi : ℝ → ℝ → ℝ,
    Continuous (fun p : ℝ × ℝ => psi p.1 p.2) → ∃ (f : ℝ → SdefFile ℝ) (t : ℝ → ℝ) (x T0 : ℝ),
    (∀ L > 0, ∃ s files, makeSource si massesR 1.4924180856e-10 plasmaTr (fm.view psi) .none L (some 2e9) .AUTO = .ok s ∧
      s.toSdef "out" = .ok files ∧ f L ∈ files ∧ (f L).name = "out.DT" ∧ (f L).ionTemp = .fin (t L)) ∧
    Tendsto (fun L => mcnpMean Prod.fst (f L).cards) (𝓝[>] 0) (𝓝 x) ∧ Tendsto t (𝓝[>] 0) (𝓝 T0) := by
  obtain ⟨l, hl⟩ := (C39_accepted (9 : ℝ) 0 3 1.7 0.3 0.5 0).2 (by norm_num [abs_of_pos])
  obtain ⟨fm, hfm, -⟩ := C48_labels .fausser l [0, 0.5, 1] 50 (by norm_num) ⟨1, by simp, by norm_num⟩
    .linear
  have hF : PlasmaMap fm :=
    ⟨.fausser, 9, 0, 3, 1.7, 0.3, 0.5, 0, l, [0, 0.5, 1], 50, .linear, .inl rfl, hl, by norm_num, hfm⟩
  refine ⟨fm, hF, fun psi hpsi => ?_⟩
  obtain ⟨s, files, f, t, h1, -, h2, h3⟩ := C98_file good_constants .none C01_default plasma_values
    plasma_continuous fm hF psi hpsi.continuousOn .D_T (by simp [Reaction.DT]) (plasma_burns _) 2e9
    (by norm_num) "out"
  refine ⟨f, t, _, _, fun L hL => ?_, h2 Prod.fst continuous_fst, h3⟩
  obtain ⟨a1, a2, a3, a4, a5, a6⟩ := h1 L hL
  exact ⟨s L, files L, a1, a2, a3, by rw [a5]; rfl, a6⟩

end Ex

end
end TNS
