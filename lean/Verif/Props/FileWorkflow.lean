import Verif.Spec.FileWorkflow
import Verif.Props.Refine
import Verif.Props.FluxMap
import Verif.Props.Parabolic
/-
C82: sources from EQDSK and JETTO files.
-/

set_option autoImplicit false

namespace TNS
open Spec Filter Topology

/-- One column of the table read from a JETTO file. -/
theorem jetto_column (rho v : List ℝ) (v0 : ℝ) (hv0 : v.head? = some v0) (hl : v.length = rho.length)
    (hsort : (0 :: rho).Pairwise (· < ·)) (b : ℝ) (hb : rho.getLast? = some b) (hb1 : 1 ≤ b) :
    ∃ g : ℝ → ℝ, Continuous g ∧
      (∀ x, (⟨.data (List.zip (0 :: rho) (v0 :: v)), 1⟩ : Profile).value x = .ok (g x)) ∧
      (∀ (i : ℕ) (r y : ℝ), rho[i]? = some r → r ≤ 1 → v[i]? = some y → g r = y) ∧ g 0 = v0 ∧
      (∀ lo hi : ℝ, (∀ y ∈ v, lo ≤ y ∧ y ≤ hi) → ∀ x, lo ≤ g x ∧ g x ≤ hi) ∧ StraightLines rho v g := by
  set tb := List.zip (0 :: rho) (v0 :: v) with htb
  have hfst : tb.map Prod.fst = 0 :: rho := by
    rw [htb, List.map_fst_zip]; simp [hl]
  have hs : SortedTable tb := by
    have := hsort
    rw [← hfst] at this
    exact List.pairwise_map.1 this
  have hne : rho ≠ [] := by rintro rfl; simp at hb
  have hlast : ∃ q, tb.getLast? = some q ∧ q.1 = b := by
    have : (0 :: rho).getLast? = some b := by
      rw [List.getLast?_cons]; simp [hb]
    rw [← hfst, List.getLast?_map, Option.map_eq_some_iff] at this
    exact this
  obtain ⟨q, hq, hqb⟩ := hlast
  obtain ⟨g, hg, hval⟩ := C35_continuous tb hs (0, v0) q (by simp [htb]) hq (le_refl _) (hqb ▸ hb1) 1
  have h2 : 2 ≤ tb.length := by
    rw [htb, List.length_zip]
    have := List.length_pos_iff.2 hne
    simp only [List.length_cons, hl]
    omega
  have node : ∀ p ∈ tb, 0 ≤ p.1 → p.1 ≤ 1 → g p.1 = p.2 := by
    intro p hp h0 h1
    have := C35_nodes tb hs h2 p hp h0 h1 1
    rw [hval, one_mul] at this
    exact Except.ok.inj this
  -- the straight line between neighbouring rows of the table
  have seg : ∀ (i : ℕ) (p q : ℝ × ℝ) (x : ℝ), tb[i]? = some p → tb[i + 1]? = some q → 0 ≤ x → x ≤ 1 →
      p.1 ≤ x → x ≤ q.1 → g x = p.2 + (q.2 - p.2) * ((x - p.1) / (q.1 - p.1)) := by
    intro i p q x hp hq h0 h1 hpx hxq
    obtain ⟨hi, ei⟩ := List.getElem?_eq_some_iff.1 hp
    obtain ⟨hi', ei'⟩ := List.getElem?_eq_some_iff.1 hq
    have hsplit : tb = tb.take i ++ p :: q :: tb.drop (i + 2) := by
      conv_lhs => rw [← List.take_append_drop i tb]
      rw [List.drop_eq_getElem_cons hi, List.drop_eq_getElem_cons hi', ei, ei']
    have hc := clip_of_mem x h0 h1
    have hs' := hs
    rw [hsplit] at hs'
    have := (C35_linear (tb.take i) p q (tb.drop (i + 2)) hs' 1 x (by rw [hc]; exact hpx)
      (by rw [hc]; exact hxq)).1
    rw [← hsplit, hval, hc, one_mul] at this
    exact Except.ok.inj this
  refine ⟨g, hg, fun x => hval x, ?_, node (0, v0) (by simp [htb]) le_rfl zero_le_one, ?_,
    ⟨?_, ?_, ?_, ?_⟩⟩
  · intro i r y hr h1 hy
    have hmem : (r, y) ∈ tb := by
      rw [htb]
      refine List.mem_of_getElem? (i := i + 1) ?_
      rw [List.getElem?_zip_eq_some]
      exact ⟨by simpa using hr, by simpa using hy⟩
    have h0 : 0 < r := (List.pairwise_cons.1 hsort).1 r (List.mem_of_getElem? hr)
    exact node (r, y) hmem h0.le h1
  · intro lo hi hy x
    have hm : ∀ p ∈ tb, lo ≤ p.2 ∧ p.2 ≤ hi := by
      intro p hp
      rcases List.mem_cons.1 (List.of_mem_zip hp).2 with h | h
      · rw [h]; exact hy v0 (List.mem_of_head? hv0)
      · exact hy _ h
    have := C35_bounds tb hs lo hi 1 x (g x) zero_le_one (fun p hp => (hm p hp).1)
      (fun p hp => (hm p hp).2) (hval x)
    simpa using this
  · intro r y x hr hy h0 hxr h1
    obtain rfl : v0 = y := by rw [hv0] at hy; exact Option.some.inj hy
    have := seg 0 (0, v0) (r, v0) x (by simp [htb]) (by
      rw [htb]
      cases rho with
      | nil => simp at hr
      | cons a l =>
        cases v with
        | nil => simp at hv0
        | cons b l' =>
          simp only [List.head?_cons, Option.some.injEq] at hr hv0
          subst hr; subst hv0; rfl) h0 h1 h0 hxr
    rw [this]; ring
  · intro i r r' y y' x hr hr' hy hy' hrx hxr h1
    have h0 : 0 < r := (List.pairwise_cons.1 hsort).1 r (List.mem_of_getElem? hr)
    refine seg (i + 1) (r, y) (r', y') x ?_ ?_ (h0.le.trans hrx) h1 hrx hxr
    · rw [htb, List.getElem?_zip_eq_some]
      exact ⟨by simpa using hr, by simpa using hy⟩
    · rw [htb, List.getElem?_zip_eq_some]
      exact ⟨by simpa using hr', by simpa using hy'⟩
  · intro x hx
    have := (C35_outside tb 1 x).1 hx
    rw [hval, hval] at this
    exact Except.ok.inj this
  · intro x hx
    have := (C35_outside tb 1 x).2 hx
    rw [hval, hval] at this
    exact Except.ok.inj this

/-- **C82**, transport: `TransportInformation.from_jetto` on a file whose requested time slice describes a
plasma gives profiles that are defined at every normalised flux, continuous, interpolate the file, have
non-negative densities and temperatures at which every channel has a reactivity. -/
theorem C82_transport (method : ReactivityMethod) (st : List Reaction) (frames : List (JspFrame ℝ)) (n : ℤ)
    (hn : -1 ≤ n ∧ n < frames.length) (f : JspFrame ℝ) (hf : jspSelected frames n = some f)
    (hg : GoodFrame f) :
    ∃ tr T dens, Transport.fromJetto frames n = .ok tr ∧ ProfilesAre tr T dens ∧
      ContinuousPlasma method st T dens ∧ Interpolates f T dens := by
  have hne : frames ≠ [] := by rintro rfl; simp [jspSelected] at hf
  obtain ⟨f', -, hf', hl⟩ := (C38_frames frames hne n).2 hn
  rw [hf] at hf'
  obtain rfl : f = f' := by simpa using hf'
  obtain ⟨b, hb, hb1⟩ := hg.separatrix
  obtain ⟨r0, rl, hr⟩ : ∃ a l, f.rho = a :: l := by
    cases h : f.rho with
    | nil => rw [h] at hb; simp at hb
    | cons a l => exact ⟨a, l, rfl⟩
  have cons_of : ∀ v : List ℝ, v.length = f.rho.length → ∃ a l, v = a :: l := by
    intro v hv
    cases v with
    | nil => rw [hr] at hv; simp at hv
    | cons a l => exact ⟨a, l, rfl⟩
  obtain ⟨t0, tl, ht⟩ := cons_of _ hg.ti
  obtain ⟨d0, dl, hd⟩ := cons_of _ hg.nd
  obtain ⟨e0, el, he⟩ := cons_of _ hg.nt
  have hload := hl _ _ _ _ _ _ _ _ ht hd he hr
  obtain ⟨gT, cT, vT, nT, aT, bT, lT⟩ := jetto_column f.rho (f.ti.map (· / 1000)) (t0 / 1000) (by rw [ht]; rfl)
    (by rw [List.length_map, hg.ti]) hg.radii b hb hb1
  obtain ⟨gd, cd, vd, nd, ad, bd, ld⟩ := jetto_column f.rho f.nd d0 (by rw [hd]; rfl) hg.nd hg.radii b hb hb1
  obtain ⟨gt, ct, vt, nt, at', bt, lt⟩ := jetto_column f.rho f.nt e0 (by rw [he]; rfl) hg.nt hg.radii b hb hb1
  obtain ⟨gh, ch, vh, nh, ah, bh, -⟩ := jetto_column f.rho (List.replicate f.rho.length 0) 0
    (by rw [hr]; rfl) (by simp) hg.radii b hb hb1
  have hz : ∀ x, gh x = 0 := by
    intro x
    obtain ⟨h1, h2⟩ := bh 0 0 (by simp +contextual [List.mem_replicate]) x
    linarith
  have hTpos : ∀ x, 0 < gT x ∧ gT x ≤ 960 := by
    intro x
    obtain ⟨lo, h0, hlo⟩ : ∃ lo : ℝ, 0 < lo ∧ ∀ v ∈ f.ti, lo ≤ v := by
      have : ∀ vs : List ℝ, (∀ v ∈ vs, 0 < v) → ∃ lo : ℝ, 0 < lo ∧ ∀ v ∈ vs, lo ≤ v := by
        intro vs
        induction vs with
        | nil => intro _; exact ⟨1, one_pos, by simp⟩
        | cons a l ih =>
          intro hl
          obtain ⟨lo, l1, l2⟩ := ih (fun v hv => hl v (List.mem_cons_of_mem _ hv))
          refine ⟨min a lo, lt_min (hl a List.mem_cons_self) l1, fun v hv => ?_⟩
          rcases List.mem_cons.1 hv with rfl | hv
          · exact min_le_left _ _
          · exact (min_le_right _ _).trans (l2 v hv)
      exact this _ fun v hv => (hg.ti_range v hv).1
    obtain ⟨h1, h2⟩ := bT (lo / 1000) 960 (by
      intro y hy
      obtain ⟨t, ht', rfl⟩ := List.mem_map.1 hy
      exact ⟨by have := hlo t ht'; linarith, by have := (hg.ti_range t ht').2; linarith⟩) x
    exact ⟨by linarith, h2⟩
  have nonneg : ∀ (v : List ℝ) (g : ℝ → ℝ), (∀ y ∈ v, 0 ≤ y) →
      (∀ lo hi : ℝ, (∀ y ∈ v, lo ≤ y ∧ y ≤ hi) → ∀ x, lo ≤ g x ∧ g x ≤ hi) → ∀ x, 0 ≤ g x := by
    intro v g hv hb x
    refine (hb 0 v.sum (fun y hy => ⟨hv y hy, List.single_le_sum hv y hy⟩) x).1
  refine ⟨_, gT, fun | .deuterium => gd | .tritium => gt | .helium3 => gh, by
    unfold Transport.fromJetto
    rw [hload]
    simp only [Bind.bind, Except.bind]
    rw [if_neg (by simp [hg.ti, hg.nd, hg.nt])], ⟨?_, vd, vt, ?_⟩, ⟨cT, ?_, ?_, ?_⟩, ⟨?_, ?_, lT, ld, lt, ?_, bd, bt, hz⟩⟩
  · intro x
    simpa using vT x
  · intro x
    simpa [List.replicate_succ] using vh x
  · rintro (_ | _ | _)
    exacts [cd, ct, ch]
  · rintro (_ | _ | _) x
    · exact nonneg _ _ hg.nd_nonneg bd x
    · exact nonneg _ _ hg.nt_nonneg bt x
    · exact (hz x).ge
  · intro x r _
    unfold goodTemperature
    split_ifs
    · exact fun _ => (hTpos x).2
    · exact (hTpos x).1
  · intro i r t d e h1 h2 h3 h4 h5
    exact ⟨nT i r _ h1 h2 (by rw [List.getElem?_map, h3]; rfl), nd i r _ h1 h2 h4, nt i r _ h1 h2 h5⟩
  · intro t d e h1 h2 h3
    rw [ht] at h1
    rw [hd] at h2
    rw [he] at h3
    simp only [List.head?_cons, Option.some.injEq] at h1 h2 h3
    subst h1 h2 h3
    exact ⟨aT, ad, at'⟩
  · intro lo hi h x
    exact bT _ _ (by
      intro y hy
      obtain ⟨t, ht', rfl⟩ := List.mem_map.1 hy
      exact ⟨by have := (h t ht').1; linarith, by have := (h t ht').2; linarith⟩) x

/-- The flux map of a good file, as far as the source constructor sees it. -/
theorem eqdsk_placed (spline : List ℝ → ℝ × ℝ → ℝ) (f : EqdskFile) (hf : GoodEqdsk f)
    (conv : FluxConvention) :
    ∃ m, (fromEqdsk spline f conv).2 = .ok m ∧ m.lcfs = f.bdry ∧ m.oPoint.x = f.xmag ∧
      m.oPoint.z = f.zmag ∧ ∃ fm : ParamMap, Placed fm ∧ fm.lcfs = f.bdry ∧ fm.oPoint.x = f.xmag ∧
      fm.oPoint.z = f.zmag ∧ m.view spline = fm.view (m.value spline) := by
  obtain ⟨a, ha⟩ : ∃ a, f.bdry.head? = some a := by
    cases h : f.bdry with
    | nil => have := hf.points; rw [h] at this; simp at this
    | cons a l => exact ⟨a, rfl⟩
  have hb : f.bdry.getLast? = some a := by rw [← hf.closed]; exact ha
  obtain ⟨m, hm⟩ := ((C72_errors spline f conv).2 a a ha hb).1 (by
    rw [sub_self, sub_self, abs_zero]; norm_num)
  have hm2 : m.lcfs = f.bdry ∧ m.oPoint.x = f.xmag ∧ m.oPoint.z = f.zmag := by
    have hm := hm
    simp only [fromEqdsk] at hm
    cases hc : makeClosed f.bdry with
    | error e => rw [hc] at hm; simp [Bind.bind, Except.bind] at hm
    | ok l =>
      rw [hc] at hm
      simp only [Bind.bind, Except.bind, Except.ok.injEq] at hm
      subst hm
      exact ⟨((makeClosed_ok _ _ hc).1).symm ▸ rfl, rfl, rfl⟩
  obtain ⟨h1, h2, h3⟩ := hm2
  refine ⟨m, hm, h1, h2, h3, ⟨m.lcfs, m.oPoint, [], []⟩, ⟨?_, ?_⟩, h1, h2, h3, rfl⟩
  · intro p hp
    obtain ⟨⟨x, hx, hx'⟩, -⟩ := C65_within_box m.lcfs p hp
    obtain ⟨q, hq, rfl⟩ := List.mem_map.1 hx
    exact (hf.radius q (h1 ▸ hq)).trans_le hx'
  · show containsPoint m.lcfs (m.oPoint.x, m.oPoint.z) = true
    rw [h1, h2, h3, C65_winding f.bdry hf.closed hf.points]
    exact hf.axis


section
variable {u : SI} {m : Masses ℝ} {c : ℝ}

/-- **C82**, source: with physical constants, an EQDSK file and a JETTO time slice that describe a plasma, any
interpolation of the flux grid, any understood source type, any cell size and any reactivity method, the
constructor succeeds.  There is a cell at the magnetic axis of the file, and the strength of each cell is
`n₁ n₂ <σv>(T) / (1 + δ₁₂)` times `2π x L²` with the densities and temperature of the file at the normalised
flux of the cell. -/
theorem C82_source (hc : GoodConstants u m c) (spline : List ℝ → ℝ × ℝ → ℝ)
    (method : ReactivityMethod) (arg : SourceArg) (st : List Reaction) (hst : parseSourceType arg = .ok st)
    (frames : List (JspFrame ℝ)) (n : ℤ) (hn : -1 ≤ n ∧ n < frames.length) (f : JspFrame ℝ)
    (hf : jspSelected frames n = some f) (hg : GoodFrame f)
    (eq : EqdskFile) (heq : GoodEqdsk eq) (conv : FluxConvention) (L : ℝ) (hL : 0 < L) :
    ∃ tr T dens fm s, Transport.fromJetto frames n = .ok tr ∧ Interpolates f T dens ∧
      (fromEqdsk spline eq conv).2 = .ok fm ∧
      makeSource u m c tr (fm.view spline) arg L none method = .ok s ∧ s.sourceType = st ∧
      (eq.xmag, eq.zmag) ∈ List.zip s.x s.z ∧
      ∀ r ∈ st, ∃ cells, s.strength.get? r = some cells ∧ cells.length = s.x.length ∧
        ∀ (i : ℕ) (x z v : ℝ), s.x[i]? = some x → s.z[i]? = some z → cells[i]? = some v →
          0 < x ∧ 0 ≤ v ∧ s.temperature[i]? = some (T (fm.value spline x z)) ∧
          v = rateDensity (fun sp => dens sp (fm.value spline x z))
            (thermalReactivity u m method r (T (fm.value spline x z))) r * (2 * Real.pi * x * L ^ 2) := by
  obtain ⟨tr, T, dens, htr, hpr, hcp, hint⟩ := C82_transport method st frames n hn f hf hg
  obtain ⟨fm, hfm, -, -, -, pm, hpl, -, ox, oz, hview⟩ := eqdsk_placed spline eq heq conv
  obtain ⟨s, hs, hty, hO, hcells⟩ := constructs_of hc method arg st hst tr (good_of_continuous hcp hpr) pm hpl
    (fm.value spline) L hL
  refine ⟨tr, T, dens, fm, s, htr, hint, hfm, by rw [hview]; exact hs, hty, by rw [← ox, ← oz]; exact hO, ?_⟩
  intro r hr
  obtain ⟨cells, h1, h2, h3⟩ := hcells r hr
  refine ⟨cells, h1, h2, fun i x z v hx hz hv => ?_⟩
  obtain ⟨T', nd, nt, nh, e0, e1, e2, e3, e4, x0, v0, hvv⟩ := h3 i x z v hx hz hv
  rw [hpr.temperature] at e1
  rw [hpr.deuterium] at e2
  rw [hpr.tritium] at e3
  rw [hpr.helium3] at e4
  cases e1; cases e2; cases e3; cases e4
  refine ⟨x0, v0, e0, ?_⟩
  rw [hvv]
  refine congrArg (· * (2 * Real.pi * x * L ^ 2)) (congrArg (fun n => rateDensity n _ r) ?_)
  funext sp
  cases sp <;> rfl

/-- The plasma burns at a radius where the densities of the fuel are positive. -/
theorem burns_DT {tr : Transport} {T : ℝ → ℝ} {dens : Species → ℝ → ℝ} (hpr : ProfilesAre tr T dens)
    (rho : ℝ) (hT : 0 < T rho) (hd : 0 < dens .deuterium rho) (ht : 0 < dens .tritium rho) :
    Burns tr .DT rho := by
  refine ⟨fun t e => ?_, fun x e _ => ?_, fun x e _ => ?_, fun x e h => ?_⟩
  · rw [hpr.temperature] at e; cases e; exact hT
  · rw [hpr.deuterium] at e; cases e; exact hd
  · rw [hpr.tritium] at e; cases e; exact ht
  · simp [Reaction.DT, reactants] at h

/-- **C82**, power and exports: if moreover the file has positive densities of deuterium and tritium and
temperatures up to 40 keV, and D-T is among the channels, then the constructor with a fusion power succeeds,
the source has exactly that power, OpenMC sources with positive strengths that sum to 1 are made, and one SDEF
file is written per neutronic channel. -/
theorem C82_exports (hc : GoodConstants u m c) (spline : List ℝ → ℝ × ℝ → ℝ)
    (method : ReactivityMethod) (arg : SourceArg) (st : List Reaction) (hst : parseSourceType arg = .ok st)
    (hDT : .DT ∈ st)
    (frames : List (JspFrame ℝ)) (n : ℤ) (hn : -1 ≤ n ∧ n < frames.length) (f : JspFrame ℝ)
    (hf : jspSelected frames n = some f) (hg : GoodFrame f) (h40 : ∀ t ∈ f.ti, t ≤ 40000)
    (hd : ∀ d ∈ f.nd, 0 < d) (ht : ∀ d ∈ f.nt, 0 < d)
    (eq : EqdskFile) (heq : GoodEqdsk eq) (conv : FluxConvention) (L : ℝ) (hL : 0 < L) (P : ℝ) (hP : 0 < P)
    (spec : SpectrumMethod) (hspec : spec ≠ .DATA) (stub : String) :
    ∃ tr fm s rings files, Transport.fromJetto frames n = .ok tr ∧
      (fromEqdsk spline eq conv).2 = .ok fm ∧
      makeSource u m c tr (fm.view spline) arg L (some P) method = .ok s ∧
      s.totalPower (totalEnergy m c) = P ∧
      s.toOpenmcSource spec = .ok rings ∧
      (∃ vals : List ℝ, rings.map (·.strength) = vals.map XF.fin ∧ (∀ v ∈ vals, 0 < v) ∧
        vals.sum = 1) ∧
      s.toSdef stub = .ok files ∧
      files.map (·.reaction) = st.filter (fun r => decide (0 < neutronYield r)) := by
  obtain ⟨tr, T, dens, htr, hpr, hcp, hint⟩ := C82_transport method st frames n hn f hf hg
  obtain ⟨fm, hfm, -, -, -, pm, hpl, -, ox, oz, hview⟩ := eqdsk_placed spline eq heq conv
  have lower : ∀ vs : List ℝ, (∀ v ∈ vs, 0 < v) → ∃ lo hi : ℝ, 0 < lo ∧ ∀ v ∈ vs, lo ≤ v ∧ v ≤ hi := by
    intro vs hvs
    have : ∃ lo : ℝ, 0 < lo ∧ ∀ v ∈ vs, lo ≤ v := by
      induction vs with
      | nil => exact ⟨1, one_pos, by simp⟩
      | cons a l ih =>
        obtain ⟨lo, l1, l2⟩ := ih (fun v hv => hvs v (List.mem_cons_of_mem _ hv))
        refine ⟨min a lo, lt_min (hvs a List.mem_cons_self) l1, fun v hv => ?_⟩
        rcases List.mem_cons.1 hv with rfl | hv
        · exact min_le_left _ _
        · exact (min_le_right _ _).trans (l2 v hv)
    obtain ⟨lo, h0, h1⟩ := this
    exact ⟨lo, vs.sum, h0, fun v hv => ⟨h1 v hv, List.single_le_sum (fun v hv => (hvs v hv).le) v hv⟩⟩
  obtain ⟨lT, uT, lT0, hT⟩ := lower f.ti fun t h => (hg.ti_range t h).1
  obtain ⟨ld, ud, ld0, hd'⟩ := lower f.nd hd
  obtain ⟨lt, ut, lt0, ht'⟩ := lower f.nt ht
  have hTr : ∀ rho, lT / 1000 ≤ T rho ∧ T rho ≤ 40000 / 1000 :=
    hint.T_between lT 40000 fun t h => ⟨(hT t h).1, h40 t h⟩
  obtain ⟨s, rings, files, hs, hrest⟩ := exports_of hc method arg st hst tr (good_of_continuous hcp hpr)
    (by
      intro rho T' e
      rw [hpr.temperature] at e
      cases e
      obtain ⟨a, b⟩ := hTr rho
      exact ⟨lt_of_lt_of_le (by positivity) a, b.trans (by norm_num)⟩) pm hpl
    (fm.value spline) L hL .D_T hDT (burns_DT hpr _ (lt_of_lt_of_le (by positivity) (hTr _).1)
      (lt_of_lt_of_le ld0 (hint.d_between ld ud hd' _).1) (lt_of_lt_of_le lt0 (hint.t_between lt ut ht' _).1))
    P hP spec hspec stub
  exact ⟨tr, fm, s, rings, files, htr, hfm, by rw [hview]; exact hs, hrest⟩

/-- **C82**, fine grids: if the interpolated flux is continuous inside the boundary, the rates and the power of
the source tend to the volume integrals over the inside of the boundary in the file as the cells shrink. -/
theorem C82_limit (hc : GoodConstants u m c) (spline : List ℝ → ℝ × ℝ → ℝ)
    (hcont : ∀ data, Continuous (spline data))
    (method : ReactivityMethod) (arg : SourceArg) (st : List Reaction) (hst : parseSourceType arg = .ok st)
    (frames : List (JspFrame ℝ)) (n : ℤ) (hn : -1 ≤ n ∧ n < frames.length) (f : JspFrame ℝ)
    (hf : jspSelected frames n = some f) (hg : GoodFrame f)
    (eq : EqdskFile) (heq : GoodEqdsk eq) (conv : FluxConvention) :
    ∃ tr T dens fm, ∃ s : ℝ → Source ℝ, Transport.fromJetto frames n = .ok tr ∧ Interpolates f T dens ∧
      (fromEqdsk spline eq conv).2 = .ok fm ∧
      (∀ L > 0, makeSource u m c tr (fm.view spline) arg L none method = .ok (s L)) ∧
      (∀ r ∈ st,
        Tendsto (fun L => (s L).numReactions.getD r 0) (𝓝[>] 0)
          (𝓝 (plasmaRate u m method T dens (fm.value spline) {p | Odd (winding p eq.bdry)} r)) ∧
        Tendsto (fun L => (s L).numNeutrons.getD r 0) (𝓝[>] 0)
          (𝓝 (plasmaRate u m method T dens (fm.value spline) {p | Odd (winding p eq.bdry)} r *
            (neutronYield r : ℝ)))) ∧
      Tendsto (fun L => (s L).totalPower (totalEnergy m c)) (𝓝[>] 0)
        (𝓝 (st.map (fun r => plasmaRate u m method T dens (fm.value spline) {p | Odd (winding p eq.bdry)} r *
          totalEnergy m c r)).sum) := by
  obtain ⟨tr, T, dens, htr, hpr, hcp, hint⟩ := C82_transport method st frames n hn f hf hg
  obtain ⟨fm, hfm, -, -, -, pm, hpl, hb, -, -, hview⟩ := eqdsk_placed spline eq heq conv
  have hset : {p | containsPoint pm.lcfs p = true} = {p | Odd (winding p eq.bdry)} := by
    ext p
    show containsPoint pm.lcfs p = true ↔ Odd (winding p eq.bdry)
    rw [hb]
    exact C65_winding eq.bdry heq.closed heq.points p
  obtain ⟨s, hs, hr, hp⟩ := rates_of hc arg hst hpr hcp pm hpl (fm.value spline)
    (((hcont fm.psiNorm).continuousOn) : ContinuousOn (fun p : ℝ × ℝ => fm.value spline p.1 p.2) _)
  rw [hset] at hp
  simp only [hset] at hr
  exact ⟨tr, T, dens, fm, s, htr, hint, hfm, fun L hL => by rw [hview]; exact hs L hL, hr, hp⟩

/-- `mapM` fails with `e` if every failure is `e` and there is one. -/
theorem mapM_fails {α β : Type} (g : α → Except Err β) (e : Err) (l : List α)
    (hall : ∀ a ∈ l, ∀ e', g a = .error e' → e' = e) (hex : ∃ a ∈ l, g a = .error e) :
    l.mapM g = .error e := by
  induction l with
  | nil => obtain ⟨a, h, -⟩ := hex; cases h
  | cons a l ih =>
    rw [List.mapM_cons]
    cases ea : g a with
    | error x =>
      obtain rfl := hall a List.mem_cons_self x ea
      rfl
    | ok w =>
      have : ∃ a ∈ l, g a = .error e := by
        obtain ⟨b, hb, he⟩ := hex
        rcases List.mem_cons.1 hb with rfl | hb
        · rw [ea] at he; cases he
        · exact ⟨b, hb, he⟩
      simp only [Bind.bind, Except.bind, ih (fun a h => hall a (List.mem_cons_of_mem _ h)) this]

/-- **C82**, short grids: if the radii in the JETTO file end before the separatrix, one sampled cell whose
normalised flux (at most 1, or above) exceeds the last radius makes the constructor raise `ValueError`,
whatever the flux map. -/
theorem C82_short_grid (u : SI) (m : Masses ℝ) (c : ℝ) (method : ReactivityMethod) (arg : SourceArg)
    (st : List Reaction) (hst : parseSourceType arg = .ok st)
    (frames : List (JspFrame ℝ)) (n : ℤ) (hn : -1 ≤ n ∧ n < frames.length) (f : JspFrame ℝ)
    (hf : jspSelected frames n = some f)
    (hlen : f.ti.length = f.rho.length ∧ f.nd.length = f.rho.length ∧ f.nt.length = f.rho.length)
    (hsort : (0 :: f.rho).Pairwise (· < ·)) (b : ℝ) (hb : f.rho.getLast? = some b)
    (fm : FluxMapView ℝ) (L : ℝ) (p : ℝ × ℝ)
    (hp : p ∈ samplePoints fm.lcfsX fm.lcfsZ fm.inside fm.oX fm.oZ L)
    (hout : b < min (fm.psiNorm p.1 p.2) 1) (power : Option ℝ) :
    ∃ tr, Transport.fromJetto frames n = .ok tr ∧
      makeSource u m c tr fm arg L power method = .error .valueError := by
  have hne : frames ≠ [] := by rintro rfl; simp [jspSelected] at hf
  obtain ⟨f', -, hf', hl⟩ := (C38_frames frames hne n).2 hn
  rw [hf] at hf'
  obtain rfl : f = f' := by simpa using hf'
  obtain ⟨r0, rl, hr⟩ : ∃ a l, f.rho = a :: l := by
    cases h : f.rho with
    | nil => rw [h] at hb; simp at hb
    | cons a l => exact ⟨a, l, rfl⟩
  have cons_of : ∀ v : List ℝ, v.length = f.rho.length → ∃ a l, v = a :: l := by
    intro v hv
    cases v with
    | nil => rw [hr] at hv; simp at hv
    | cons a l => exact ⟨a, l, rfl⟩
  obtain ⟨t0, tl, ht⟩ := cons_of _ hlen.1
  obtain ⟨d0, dl, hd⟩ := cons_of _ hlen.2.1
  obtain ⟨e0, el, he⟩ := cons_of _ hlen.2.2
  have hload := hl _ _ _ _ _ _ _ _ ht hd he hr
  refine ⟨_, by
    unfold Transport.fromJetto
    rw [hload]
    simp only [Bind.bind, Except.bind]
    rw [if_neg (by simp [hlen])], ?_⟩
  unfold makeSource Source.init
  rw [hst]
  simp only [Bind.bind, Except.bind, Transport.view]
  set tb := List.zip (0 :: f.rho) ((t0 :: f.ti).map (· / 1000)) with htb
  have hfst : tb.map Prod.fst = 0 :: f.rho := by
    rw [htb, List.map_fst_zip]; simp [hlen.1]
  have hs : SortedTable tb := by
    have := hsort
    rw [← hfst] at this
    exact List.pairwise_map.1 this
  obtain ⟨q, hq, hqb⟩ : ∃ q, tb.getLast? = some q ∧ q.1 = b := by
    have : (0 :: f.rho).getLast? = some b := by
      rw [List.getLast?_cons]; simp [hb]
    rw [← hfst, List.getLast?_map, Option.map_eq_some_iff] at this
    exact this
  have hrange := fun x => C35_range tb hs (0, t0 / 1000) q (by simp [htb]) hq 1 x
  have key : (List.zipWith fm.psiNorm (sampleSpace2d Real.pi fm.lcfsX fm.lcfsZ fm.inside fm.oX fm.oZ L).x
      (sampleSpace2d Real.pi fm.lcfsX fm.lcfsZ fm.inside fm.oX fm.oZ L).z).mapM
      (⟨.data tb, 1⟩ : Profile).value = .error .valueError := by
    refine mapM_fails _ _ _ ?_ ?_
    · intro a _ e' h
      by_cases hx : ∃ v : ℝ, dataValue tb 1 a = .ok v
      · obtain ⟨v, hv⟩ := hx
        have h : dataValue tb 1 a = .error e' := h
        rw [hv] at h; cases h
      · have h : dataValue tb 1 a = .error e' := h
        have := (hrange a).1.2 (by
          by_contra hcon
          rw [not_or, not_lt, not_lt] at hcon
          exact hx ((hrange a).2.1 hcon))
        rw [this] at h; cases h; rfl
    · refine ⟨fm.psiNorm p.1 p.2, ?_, (hrange _).1.2 (Or.inr ?_)⟩
      · simp only [sampleSpace2d, List.zipWith_map, List.zipWith_self, List.mem_map]
        exact ⟨p, hp, rfl⟩
      · rw [hqb]
        refine hout.trans_le ?_
        unfold clip
        exact min_le_min_right _ (le_max_left _ _)
  rw [key]

end

/-! ### A plasma that meets the hypotheses -/

namespace Ex

/-- A diamond-shaped plasma around (3, 0), flux 3 on the axis falling outwards. -/
noncomputable def eqdsk : EqdskFile :=
  { data := ⟨[3, -5], 3, 0⟩
    bdry := [(4, 0), (3, 2), (2, 0), (3, -2), (4, 0)]
    xmag := 3
    zmag := 0 }

/-- A JETTO slice with three radii. -/
noncomputable def frame : JspFrame ℝ :=
  ⟨[0.2, 0.6, 1], [20000, 8000, 100], [5e19, 4e19, 1e19], [5e19, 4e19, 1e19]⟩

theorem good_eqdsk : GoodEqdsk eqdsk where
  closed := rfl
  points := by simp [eqdsk]
  radius := by simp [eqdsk]
  axis := by
    have : winding (eqdsk.xmag, eqdsk.zmag) eqdsk.bdry = 1 := by
      simp only [eqdsk, winding, signedCross, UpCross, DownCross, abscissa]
      norm_num
    rw [this]; exact odd_one
  flux := by norm_num [eqdsk]

theorem good_frame : GoodFrame frame where
  ti := rfl
  nd := rfl
  nt := rfl
  radii := by norm_num [frame]
  separatrix := ⟨1, rfl, le_rfl⟩
  ti_range := by norm_num [frame]
  nd_nonneg := by norm_num [frame]
  nt_nonneg := by norm_num [frame]

end Ex

/-- The default source of that plasma at 500 MW. -/
example : ∃ tr fm s rings files, Transport.fromJetto [Ex.frame] (-1) = .ok tr ∧
    (fromEqdsk twoPoint Ex.eqdsk .sqrt).2 = .ok fm ∧
    makeSource Ex.si Ex.massesR 1.4924180856e-10 tr (fm.view twoPoint) .none 0.1 (some 5e8) .AUTO = .ok s ∧
    s.totalPower (totalEnergy Ex.massesR 1.4924180856e-10) = 5e8 ∧
    s.toOpenmcSource .AUTO = .ok rings ∧
    (∃ vals : List ℝ, rings.map (·.strength) = vals.map XF.fin ∧ (∀ v ∈ vals, 0 < v) ∧
      vals.sum = 1) ∧
    s.toSdef "out" = .ok files ∧
    files.map (·.reaction) = [.DT, .DDn, .DDp, .TT].filter (fun r => decide (0 < neutronYield r)) :=
  C82_exports Ex.good_constants twoPoint .AUTO .none _ C01_default (by simp) [Ex.frame] (-1) (by simp) Ex.frame
    rfl Ex.good_frame (by norm_num [Ex.frame]) (by norm_num [Ex.frame]) (by norm_num [Ex.frame]) Ex.eqdsk
    Ex.good_eqdsk .sqrt 0.1 (by norm_num) 5e8 (by norm_num) .AUTO (by simp) "out"

/-- A JETTO grid that ends at 0.98 and a flux map with flux 0.99 on its axis. -/
example : ∃ tr, Transport.fromJetto [⟨[0.5, 0.98], [9000, 100], [4e19, 1e19], [4e19, 1e19]⟩] (-1) = .ok tr ∧
    makeSource Ex.si Ex.massesR 1.4924180856e-10 tr
      ⟨Ex.eqdsk.bdry.map Prod.fst, Ex.eqdsk.bdry.map Prod.snd, containsPoint Ex.eqdsk.bdry, 3, 0,
        fun _ _ => 0.99⟩ .none 0.1 none .AUTO = .error .valueError :=
  C82_short_grid _ _ _ .AUTO .none _ C01_default _ (-1) (by simp) _ rfl (by simp) (by norm_num) 0.98 rfl _ 0.1
    (3, 0) (C13_o_point _ _ _ (C65_within_box _) _ _ _ (by norm_num)
      ((C65_winding _ Ex.good_eqdsk.closed Ex.good_eqdsk.points _).2 Ex.good_eqdsk.axis)) (by norm_num) none

end TNS
