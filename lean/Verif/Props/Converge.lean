import Verif.Props.Physical
import Mathlib.MeasureTheory.Integral.DominatedConvergence
import Mathlib.MeasureTheory.Measure.Lebesgue.Basic
import Mathlib.MeasureTheory.Integral.Bochner.Set
import Mathlib.MeasureTheory.Integral.Prod
import Mathlib.Analysis.SpecialFunctions.Integrals.Basic
/-
C17: the discretisation converges as the cell side length tends to zero, along every sequence.
-/

set_option autoImplicit false

namespace TNS
open Spec MeasureTheory Filter Topology

/-- The half-open square cell as a set. -/
def cellSet (L : ℝ) (p : ℝ × ℝ) : Set (ℝ × ℝ) := {q | Cell L p q}

theorem cellSet_eq (L : ℝ) (p : ℝ × ℝ) :
    cellSet L p = Set.Ico (p.1 - L / 2) (p.1 + L / 2) ×ˢ Set.Ico (p.2 - L / 2) (p.2 + L / 2) := by
  ext q
  simp only [cellSet, Cell, Set.mem_setOf_eq, Set.mem_prod, Set.mem_Ico]
  tauto

theorem cellSet_measurable (L : ℝ) (p : ℝ × ℝ) : MeasurableSet (cellSet L p) := by
  rw [cellSet_eq]; exact measurableSet_Ico.prod measurableSet_Ico

theorem cellSet_volume (L : ℝ) (p : ℝ × ℝ) :
    volume (cellSet L p) = ENNReal.ofReal L * ENNReal.ofReal L := by
  rw [cellSet_eq, Measure.volume_eq_prod, Measure.prod_prod, Real.volume_Ico, Real.volume_Ico]
  congr 2 <;> ring

theorem cellSet_real (L : ℝ) (hL : 0 < L) (p : ℝ × ℝ) : volume.real (cellSet L p) = L ^ 2 := by
  rw [Measure.real, cellSet_volume, ENNReal.toReal_mul, ENNReal.toReal_ofReal hL.le, sq]

/-- The function that is constant on each sampled cell. -/
noncomputable def stepFn (F : ℝ × ℝ → ℝ) (L : ℝ) (l : List (ℝ × ℝ)) (q : ℝ × ℝ) : ℝ :=
  (l.map (fun p => (cellSet L p).indicator (fun _ => F p) q)).sum

theorem stepFn_integral (F : ℝ × ℝ → ℝ) (L : ℝ) (hL : 0 < L) (l : List (ℝ × ℝ)) :
    Integrable (stepFn F L l) ∧
      ∫ q, stepFn F L l q = (l.map (fun p => F p * L ^ 2)).sum := by
  induction l with
  | nil =>
    have h0 : stepFn F L [] = fun _ => (0 : ℝ) := by funext q; simp [stepFn]
    rw [h0]
    exact ⟨integrable_zero _ _ _, by simp⟩
  | cons a l ih =>
    have hi : Integrable ((cellSet L a).indicator (fun _ => F a)) := by
      rw [integrable_indicator_iff (cellSet_measurable L a)]
      refine integrableOn_const ?_
      rw [cellSet_volume]
      exact (ENNReal.mul_lt_top ENNReal.ofReal_lt_top ENNReal.ofReal_lt_top).ne
    have he : stepFn F L (a :: l) = (cellSet L a).indicator (fun _ => F a) + stepFn F L l := by
      funext q; simp [stepFn]
    rw [he]
    refine ⟨hi.add ih.1, ?_⟩
    have := integral_add hi ih.1
    simp only [Pi.add_apply]
    rw [this, ih.2, integral_indicator (cellSet_measurable L a), setIntegral_const,
      cellSet_real L hL]
    simp [mul_comm]

theorem stepFn_zero (F : ℝ × ℝ → ℝ) (L : ℝ) (l : List (ℝ × ℝ)) (q : ℝ × ℝ)
    (h : ∀ p ∈ l, ¬ Cell L p q) : stepFn F L l q = 0 := by
  unfold stepFn
  apply List.sum_eq_zero
  intro v hv
  obtain ⟨p, hp, rfl⟩ := List.mem_map.1 hv
  exact Set.indicator_of_notMem (s := cellSet L p) (h p hp) (fun _ => F p)

theorem stepFn_unique (F : ℝ × ℝ → ℝ) (L : ℝ) (l : List (ℝ × ℝ)) (hn : l.Nodup) (q p : ℝ × ℝ)
    (hp : p ∈ l) (hc : Cell L p q) (hu : ∀ p' ∈ l, Cell L p' q → p' = p) :
    stepFn F L l q = F p := by
  induction l with
  | nil => simp at hp
  | cons a l ih =>
    have he : stepFn F L (a :: l) q =
        (cellSet L a).indicator (fun _ => F a) q + stepFn F L l q := by simp [stepFn]
    rw [List.nodup_cons] at hn
    rw [he]
    by_cases hpa : p = a
    · subst hpa
      rw [Set.indicator_of_mem (show q ∈ cellSet L p from hc), stepFn_zero, add_zero]
      intro p' hp' hc'
      have := hu p' (List.mem_cons_of_mem _ hp') hc'
      subst this
      exact hn.1 hp'
    · have hpl : p ∈ l := by
        rcases List.mem_cons.1 hp with h | h
        · exact absurd h hpa
        · exact h
      rw [ih hn.2 hpl (fun p' h => hu p' (List.mem_cons_of_mem _ h)), Set.indicator_of_notMem,
        zero_add]
      intro h
      exact hpa (hu a List.mem_cons_self h).symm

theorem cell_dist {L : ℝ} {p q : ℝ × ℝ} (hL : 0 < L) (h : Cell L p q) : dist p q < L := by
  obtain ⟨h1, h2, h3, h4⟩ := h
  rw [Prod.dist_eq, max_lt_iff, Real.dist_eq, Real.dist_eq, abs_lt, abs_lt]
  refine ⟨⟨?_, ?_⟩, ?_, ?_⟩ <;> linarith

/-- Sums over the sampled cells of `F` at the centre times the cell area converge to the integral of
`F` over the set accepted by the polygon test. -/
theorem riemann_sum (xs zs : List ℝ) (inside : ℝ × ℝ → Bool) (hbox : WithinBox xs zs inside)
    (hnull : volume (frontier {p | inside p = true}) = 0) (oX oZ : ℝ) (F : ℝ × ℝ → ℝ) (C : ℝ)
    (hC : ∀ p, inside p = true → |F p| ≤ C)
    (hcont : ContinuousOn F (interior {p | inside p = true})) :
    Tendsto (fun L : ℝ => ((samplePoints xs zs inside oX oZ L).map (fun p => F p * L ^ 2)).sum)
      (𝓝[>] 0) (𝓝 (∫ p in {p | inside p = true}, F p)) := by
  classical
  set S : Set (ℝ × ℝ) := {p | inside p = true} with hS
  have hmeas : NullMeasurableSet S volume := by
    have : interior S =ᵐ[volume] S := by
      refine (ae_eq_set).2 ⟨?_, ?_⟩
      · rw [Set.sdiff_eq_empty.2 interior_subset, measure_empty]
      · refine measure_mono_null ?_ hnull
        intro x hx
        exact ⟨subset_closure hx.1, hx.2⟩
    exact isOpen_interior.measurableSet.nullMeasurableSet.congr this
  rw [← integral_indicator₀ hmeas]
  have hev : (fun L : ℝ => ((samplePoints xs zs inside oX oZ L).map (fun p => F p * L ^ 2)).sum)
      =ᶠ[𝓝[>] 0] fun L => ∫ q, stepFn F L (samplePoints xs zs inside oX oZ L) q := by
    filter_upwards [self_mem_nhdsWithin] with L hL
    exact (stepFn_integral F L hL _).2.symm
  refine Tendsto.congr' hev.symm ?_
  -- value of the step function
  have hval : ∀ L : ℝ, 0 < L → ∀ p q : ℝ × ℝ, p ∈ samplePoints xs zs inside oX oZ L →
      Cell L p q → stepFn F L (samplePoints xs zs inside oX oZ L) q = F p := by
    intro L hL p q hp hc
    refine stepFn_unique F L _ (C12_nodup xs zs inside oX oZ L hL) q p hp hc ?_
    intro p' hp' hc'
    exact C14_disjoint xs zs inside hbox oX oZ L hL p' p q hp' hp hc' hc
  have hins : ∀ L : ℝ, 0 < L → ∀ p : ℝ × ℝ, p ∈ samplePoints xs zs inside oX oZ L → p ∈ S := by
    intro L hL p hp
    exact ((C12_exact xs zs inside hbox oX oZ L hL p).1 hp).2
  set B : Set (ℝ × ℝ) := Set.Icc (npMin xs - 1) (npMax xs + 1) ×ˢ
    Set.Icc (npMin zs - 1) (npMax zs + 1) with hB
  refine tendsto_integral_filter_of_dominated_convergence (B.indicator (fun _ => max C 0)) ?_ ?_ ?_ ?_
  · filter_upwards [self_mem_nhdsWithin] with L hL
    exact (stepFn_integral F L hL _).1.aestronglyMeasurable
  · have h1 : Set.Ioo (0 : ℝ) 1 ∈ 𝓝[>] (0 : ℝ) := Ioo_mem_nhdsGT one_pos
    filter_upwards [h1] with L hL
    refine Eventually.of_forall fun q => ?_
    by_cases h : ∃ p ∈ samplePoints xs zs inside oX oZ L, Cell L p q
    · obtain ⟨p, hp, hc⟩ := h
      have hpS := hins L hL.1 p hp
      rw [hval L hL.1 p q hp hc, Set.indicator_of_mem]
      · exact (hC p hpS).trans (le_max_left _ _)
      · obtain ⟨⟨a, ha, ha'⟩, ⟨b, hb, hb'⟩, ⟨c, hc1, hc'⟩, ⟨d, hd, hd'⟩⟩ := hbox p hpS
        have := npMin_le xs a ha
        have := le_npMax xs b hb
        have := npMin_le zs c hc1
        have := le_npMax zs d hd
        obtain ⟨e1, e2, e3, e4⟩ := hc
        have := hL.2
        refine ⟨⟨?_, ?_⟩, ?_, ?_⟩ <;> linarith
    · push Not at h
      rw [stepFn_zero F L _ q h, norm_zero]
      exact Set.indicator_nonneg (fun _ _ => le_max_right _ _) q
  · rw [integrable_indicator_iff (measurableSet_Icc.prod measurableSet_Icc)]
    refine integrableOn_const ?_
    rw [Measure.volume_eq_prod, Measure.prod_prod, Real.volume_Icc, Real.volume_Icc]
    exact (ENNReal.mul_lt_top ENNReal.ofReal_lt_top ENNReal.ofReal_lt_top).ne
  · have : ∀ᵐ q : ℝ × ℝ, q ∉ frontier S := measure_eq_zero_iff_ae_notMem.1 hnull
    filter_upwards [this] with q hq
    by_cases hqi : q ∈ interior S
    · rw [Set.indicator_of_mem (interior_subset hqi)]
      rw [Metric.tendsto_nhdsWithin_nhds]
      intro ε hε
      have hca : ContinuousAt F q := hcont.continuousAt (isOpen_interior.mem_nhds hqi)
      obtain ⟨δ, hδ, hd⟩ := Metric.continuousAt_iff.1 hca ε hε
      obtain ⟨δ', hδ', hd'⟩ := Metric.isOpen_iff.1 isOpen_interior q hqi
      refine ⟨min δ δ', lt_min hδ hδ', ?_⟩
      intro L hL hLd
      have hL : 0 < L := hL
      rw [Real.dist_eq, sub_zero, abs_of_pos hL] at hLd
      obtain ⟨p, _, hc, _, hp⟩ := C14_cover xs zs inside hbox oX oZ L hL q
      have hdist := cell_dist hL hc
      have hpS : p ∈ S := interior_subset (hd' (hdist.trans (hLd.trans_le (min_le_right _ _))))
      rw [hval L hL p q (hp.1 hpS) hc]
      exact hd (hdist.trans (hLd.trans_le (min_le_left _ _)))
    · have hqc : q ∉ closure S := fun h => hq ⟨h, hqi⟩
      rw [Set.indicator_of_notMem (fun h => hqc (subset_closure h))]
      rw [Metric.tendsto_nhdsWithin_nhds]
      intro ε hε
      obtain ⟨δ, hδ, hd⟩ := Metric.isOpen_iff.1 isClosed_closure.isOpen_compl q hqc
      refine ⟨δ, hδ, ?_⟩
      intro L hL hLd
      have hL : 0 < L := hL
      rw [Real.dist_eq, sub_zero, abs_of_pos hL] at hLd
      rw [stepFn_zero, dist_self]
      · exact hε
      · intro p hp hc
        exact hd ((cell_dist hL hc).trans hLd) (subset_closure (hins L hL p hp))

/-! ### Closed form of a source whose profiles and reactivity have values at every cell -/

namespace Spec

/-- Plasma profiles as plain functions of the normalised flux and reactivities as plain functions
of the temperature. -/
structure Profiles (K : Type) where
  temperature : K → K
  density : Species → K → K
  sv : Reaction → K → K

section
variable {K : Type} [Field K] [LinearOrder K] [IsStrictOrderedRing K] [FloorRing K]

/-- Reactions per unit volume and time at the point `p` of the poloidal plane. -/
def emissivity (pr : Profiles K) (psi : K → K → K) (r : Reaction) (p : K × K) : K :=
  rateDensity (fun sp => pr.density sp (psi p.1 p.2)) (pr.sv r (pr.temperature (psi p.1 p.2))) r

/-- The transport information and reactivity method handed to the source have, at every point inside
the LCFS, the values given by `pr` (reactivities for the channels `st`, at one temperature or more). -/
structure Realises (pr : Profiles K) (sv : Reaction → List K → Except Err (List K))
    (tr : TransportView K) (fm : FluxMapView K) (st : List Reaction) : Prop where
  temperature : ∀ p, fm.inside p = true →
    tr.temperature (fm.psiNorm p.1 p.2) = .ok (pr.temperature (fm.psiNorm p.1 p.2))
  deuterium : ∀ p, fm.inside p = true →
    tr.deuterium (fm.psiNorm p.1 p.2) = .ok (pr.density .deuterium (fm.psiNorm p.1 p.2))
  tritium : ∀ p, fm.inside p = true →
    tr.tritium (fm.psiNorm p.1 p.2) = .ok (pr.density .tritium (fm.psiNorm p.1 p.2))
  helium3 : ∀ p, fm.inside p = true →
    tr.helium3 (fm.psiNorm p.1 p.2) = .ok (pr.density .helium3 (fm.psiNorm p.1 p.2))
  sv : ∀ r ∈ st, ∀ ts : List K, ts ≠ [] →
    (∀ t ∈ ts, ∃ p, fm.inside p = true ∧ t = pr.temperature (fm.psiNorm p.1 p.2)) →
    sv r ts = .ok (ts.map (pr.sv r))

end
end Spec

section
variable {K : Type} [Field K] [LinearOrder K] [IsStrictOrderedRing K] [FloorRing K]

omit [LinearOrder K] [IsStrictOrderedRing K] [FloorRing K] in
theorem foldlM_addReaction_ok (sv : Reaction → List K → Except Err (List K)) (d t h temp vol : List K)
    (l : List Reaction) (s0 : Source K) (ht : s0.temperature = temp) (hv : s0.dVolume = vol)
    (hok : ∀ r ∈ l, ∃ w, strengthOf sv d t h temp vol r = .ok w) :
    ∃ s, l.foldlM (Source.addReaction sv d t h) s0 = .ok s := by
  induction l generalizing s0 with
  | nil => exact ⟨s0, rfl⟩
  | cons a l ih =>
    obtain ⟨w, hw⟩ := hok a List.mem_cons_self
    rw [List.foldlM_cons]
    unfold strengthOf at hw
    cases ea : densityWeightedReactivity sv temp d t h a with
    | error x => rw [ea] at hw; cases hw
    | ok w1 =>
      have hadd : ∃ s1, Source.addReaction sv d t h s0 a = .ok s1 ∧ s1.temperature = temp ∧
          s1.dVolume = vol := by
        simp only [Source.addReaction, ht, ea, Bind.bind, Except.bind]
        refine ⟨_, rfl, ?_, hv⟩
        simp
      obtain ⟨s1, e1, e2, e3⟩ := hadd
      rw [e1]
      exact ih s1 e2 e3 (fun r hr => hok r (List.mem_cons_of_mem _ hr))

theorem mapM_pure {α β : Type} (f : α → Except Err β) (g : α → β) (l : List α)
    (h : ∀ a ∈ l, f a = .ok (g a)) : l.mapM f = .ok (l.map g) := by
  rw [mapM_ok_iff]
  induction l with
  | nil => exact .nil
  | cons a l ih =>
    exact .cons (h a List.mem_cons_self) (ih fun b hb => h b (List.mem_cons_of_mem _ hb))

/-- Closed form of a source, see `C10_closed_form`. -/
theorem closed_form_aux (pi : K) (Q : Reaction → K) (sv : Reaction → List K → Except Err (List K))
    (tr : TransportView K) (fm : FluxMapView K) (pr : Profiles K)
    (arg : SourceArg) (st : List Reaction) (hst : parseSourceType arg = .ok st)
    (hr : Realises pr sv tr fm st) (L : K) :
    (samplePoints fm.lcfsX fm.lcfsZ fm.inside fm.oX fm.oZ L ≠ [] →
      ∃ s, Source.init pi Q sv tr fm arg L none = .ok s) ∧
    ∀ s, Source.init pi Q sv tr fm arg L none = .ok s → s.sourceType = st ∧
      s.temperature = (samplePoints fm.lcfsX fm.lcfsZ fm.inside fm.oX fm.oZ L).map (fun p =>
          pr.temperature (fm.psiNorm p.1 p.2)) ∧
      ∀ r ∈ st, s.strength.get? r =
        some ((samplePoints fm.lcfsX fm.lcfsZ fm.inside fm.oX fm.oZ L).map (fun p =>
          emissivity pr fm.psiNorm r p * (2 * pi * p.1 * L ^ 2))) := by
  set pts := samplePoints fm.lcfsX fm.lcfsZ fm.inside fm.oX fm.oZ L with hpts
  have hin : ∀ p ∈ pts, fm.inside p = true := fun p hp => (List.mem_filter.1 hp).2
  set smp := sampleSpace2d pi fm.lcfsX fm.lcfsZ fm.inside fm.oX fm.oZ L with hsmp
  have hpsi : List.zipWith fm.psiNorm smp.x smp.z = pts.map (fun p => fm.psiNorm p.1 p.2) := by
    simp only [hsmp, sampleSpace2d, ← hpts]
    generalize pts = l
    induction l with
    | nil => rfl
    | cons a l ih => simp [ih]
  have hvol : smp.dVolume = pts.map (fun p => 2 * pi * p.1 * L ^ 2) := rfl
  have m : ∀ (f : K → Except Err K) (g : K → K),
      (∀ p, fm.inside p = true → f (fm.psiNorm p.1 p.2) = .ok (g (fm.psiNorm p.1 p.2))) →
      (List.zipWith fm.psiNorm smp.x smp.z).mapM f =
        .ok (pts.map (fun p => g (fm.psiNorm p.1 p.2))) := by
    intro f g h
    rw [hpsi, mapM_pure f g, List.map_map]
    · rfl
    · intro a ha
      obtain ⟨p, hp, rfl⟩ := List.mem_map.1 ha
      exact h p (hin p hp)
  have mT := m _ _ hr.temperature
  have mD := m _ _ hr.deuterium
  have mt := m _ _ hr.tritium
  have mh := m _ _ hr.helium3
  have hsv : pts ≠ [] → ∀ r ∈ st, sv r (pts.map (fun p => pr.temperature (fm.psiNorm p.1 p.2))) =
      .ok (pts.map (fun p => pr.sv r (pr.temperature (fm.psiNorm p.1 p.2)))) := by
    intro hne r hrs
    rw [hr.sv r hrs, List.map_map]
    · rfl
    · simpa using hne
    · intro t ht
      obtain ⟨p, hp, rfl⟩ := List.mem_map.1 ht
      exact ⟨p, hin p hp, rfl⟩
  have hstr : pts ≠ [] → ∀ r ∈ st, strengthOf sv (pts.map (fun p => pr.density .deuterium (fm.psiNorm p.1 p.2)))
      (pts.map (fun p => pr.density .tritium (fm.psiNorm p.1 p.2)))
      (pts.map (fun p => pr.density .helium3 (fm.psiNorm p.1 p.2)))
      (pts.map (fun p => pr.temperature (fm.psiNorm p.1 p.2))) smp.dVolume r =
      .ok (pts.map (fun p => emissivity pr fm.psiNorm r p * (2 * pi * p.1 * L ^ 2))) := by
    intro hne r hrs
    unfold strengthOf densityWeightedReactivity
    rw [hsv hne r hrs, hvol]
    simp only [Bind.bind, Except.bind]
    refine congrArg Except.ok ?_
    clear hne
    generalize pts = l
    induction l with
    | nil => rcases r with (_ | _ | _) | (_ | _) <;> rfl
    | cons a l ih =>
      rcases r with (_ | _ | _) | (_ | _) <;>
        simp only [pairDensity, List.map_cons, List.zipWith_cons_cons, List.cons.injEq] at ih ⊢ <;>
        refine ⟨?_, ih⟩ <;>
        simp only [emissivity, rateDensity, reactants, reduceCtorEq, if_true, if_false] <;> ring
  refine ⟨fun hne => ?_, fun s hs => ?_⟩
  · unfold Source.init
    rw [hst]
    simp only [Bind.bind, Except.bind, ← hsmp]
    rw [mT, mD, mt, mh]
    simp only
    generalize hs0 : Source.mk st smp.x smp.z smp.dVolume L
      (pts.map (fun p => pr.temperature (fm.psiNorm p.1 p.2))) [] [] [] = s0
    obtain ⟨s, hs⟩ := foldlM_addReaction_ok sv
      (pts.map (fun p => pr.density .deuterium (fm.psiNorm p.1 p.2)))
      (pts.map (fun p => pr.density .tritium (fm.psiNorm p.1 p.2)))
      (pts.map (fun p => pr.density .helium3 (fm.psiNorm p.1 p.2)))
      (pts.map (fun p => pr.temperature (fm.psiNorm p.1 p.2))) smp.dVolume st s0
      (by rw [← hs0]) (by rw [← hs0]) (fun r h => ⟨_, hstr hne r h⟩)
    rw [hs]
    exact ⟨s, rfl⟩
  obtain ⟨temp, d, t, he, f, p0, t1, d1, t2, h1, _, _, _, _, hT, ⟨_, c1, _, _⟩, hf⟩ :=
    Source.init_none hs
  rw [hst] at p0
  have p0 : st = s.sourceType := by cases p0; rfl
  rw [← hsmp] at t1
  rw [mT] at t1
  cases t1
  refine ⟨p0.symm, hT, ?_⟩
  intro r hrs
  have hrs' := hrs
  rw [p0] at hrs
  have e := hf r hrs
  rw [← hsmp] at d1 t2 h1 e
  rw [mD] at d1; rw [mt] at t2; rw [mh] at h1
  cases d1; cases t2; cases h1
  rw [c1, Dict.get?_map_pair, if_pos hrs]
  by_cases hne : pts = []
  · unfold strengthOf at e
    rw [hvol, hne] at e
    cases hw : densityWeightedReactivity sv ([].map (fun p : K × K => pr.temperature (fm.psiNorm p.1 p.2)))
      ([].map (fun p : K × K => pr.density .deuterium (fm.psiNorm p.1 p.2)))
      ([].map (fun p : K × K => pr.density .tritium (fm.psiNorm p.1 p.2)))
      ([].map (fun p : K × K => pr.density .helium3 (fm.psiNorm p.1 p.2))) r with
    | error x => rw [hw] at e; cases e
    | ok w =>
      rw [hw] at e
      simp only [Bind.bind, Except.bind, List.map_nil, List.zipWith_nil_right, Except.ok.injEq] at e
      rw [hne, ← e]; rfl
  · rw [hstr hne r hrs'] at e
    exact congrArg some (Except.ok.inj e).symm

/-- **C10**, closed form: a source whose sample is not empty is constructed without error, and the
strength of each channel lists, cell by cell, the emissivity at the cell centre times the volume of the
cell. -/
theorem C10_closed_form (pi : K) (Q : Reaction → K) (sv : Reaction → List K → Except Err (List K))
    (tr : TransportView K) (fm : FluxMapView K) (pr : Profiles K)
    (arg : SourceArg) (st : List Reaction) (hst : parseSourceType arg = .ok st)
    (hr : Realises pr sv tr fm st) (L : K)
    (hne : samplePoints fm.lcfsX fm.lcfsZ fm.inside fm.oX fm.oZ L ≠ []) :
    ∃ s, Source.init pi Q sv tr fm arg L none = .ok s ∧ s.sourceType = st ∧
      ∀ r ∈ st, s.strength.get? r =
        some ((samplePoints fm.lcfsX fm.lcfsZ fm.inside fm.oX fm.oZ L).map (fun p =>
          emissivity pr fm.psiNorm r p * (2 * pi * p.1 * L ^ 2))) := by
  obtain ⟨h1, h2⟩ := closed_form_aux pi Q sv tr fm pr arg st hst hr L
  obtain ⟨s, hs⟩ := h1 hne
  exact ⟨s, hs, (h2 s hs).1, (h2 s hs).2.2⟩

end

/-! ### C15 -/

/-- **C15**, integral form: each cell volume is the integral of the circumference `2πx` over the cell,
the volume of the solid of revolution of the cell. -/
theorem C15_integral (x z L : ℝ) (hL : 0 < L) :
    cellVolume Real.pi x L = ∫ q in {q : ℝ × ℝ | Cell L (x, z) q}, 2 * Real.pi * q.1 := by
  have h1 : ∫ y in Set.Ico (x - L / 2) (x + L / 2), 2 * Real.pi * y = 2 * Real.pi * x * L := by
    rw [integral_Ico_eq_integral_Ioo, ← integral_Ioc_eq_integral_Ioo,
      ← intervalIntegral.integral_of_le (by linarith), intervalIntegral.integral_const_mul,
      integral_id]
    ring
  have h2 : ∫ _y in Set.Ico (z - L / 2) (z + L / 2), (1 : ℝ) = L := by
    rw [setIntegral_const, Measure.real, Real.volume_Ico, ENNReal.toReal_ofReal (by linarith)]
    simp
  have h3 := setIntegral_prod_mul (μ := volume) (ν := volume) (fun y : ℝ => 2 * Real.pi * y)
    (fun _ : ℝ => (1 : ℝ)) (Set.Ico (x - L / 2) (x + L / 2)) (Set.Ico (z - L / 2) (z + L / 2))
  rw [h1, h2] at h3
  have h4 : {q : ℝ × ℝ | Cell L (x, z) q} = _ := cellSet_eq L (x, z)
  rw [h4, Measure.volume_eq_prod]
  simp only [mul_one] at h3
  rw [h3, cellVolume]
  ring

/-! ### C17 -/

/-- **C17**, volume: the summed cell volumes converge to the volume of revolution of the LCFS
interior as the cell side length tends to zero. -/
theorem C17_volume (xs zs : List ℝ) (inside : ℝ × ℝ → Bool) (hbox : WithinBox xs zs inside)
    (hnull : volume (frontier {p | inside p = true}) = 0) (oX oZ : ℝ) :
    Tendsto (fun L : ℝ => (sampleSpace2d Real.pi xs zs inside oX oZ L).dVolume.sum)
      (𝓝[>] 0) (𝓝 (∫ p in {p | inside p = true}, 2 * Real.pi * p.1)) := by
  refine riemann_sum xs zs inside hbox hnull oX oZ (fun p => 2 * Real.pi * p.1)
    (2 * Real.pi * max |npMin xs| |npMax xs|) ?_ (by fun_prop)
  intro p hp
  obtain ⟨⟨a, ha, ha'⟩, ⟨b, hb, hb'⟩, _⟩ := hbox p hp
  rw [abs_mul, abs_of_pos Real.two_pi_pos]
  refine mul_le_mul_of_nonneg_left ?_ Real.two_pi_pos.le
  exact abs_le_max_abs_abs ((npMin_le xs a ha).trans ha') (hb'.trans (le_npMax xs b hb))

/-- **C17**, rates: for profiles that make the emissivity of a channel bounded inside the LCFS and
continuous in its interior, the channel's reaction rate converges to the volume integral of the
emissivity, and its neutron rate to that integral times the neutron yield, as the cell side length
tends to zero (however it does). -/
theorem C17_rates (Q : Reaction → ℝ) (sv : Reaction → List ℝ → Except Err (List ℝ))
    (tr : TransportView ℝ) (fm : FluxMapView ℝ) (pr : Profiles ℝ)
    (arg : SourceArg) (st : List Reaction) (hst : parseSourceType arg = .ok st)
    (hr : Realises pr sv tr fm st) (hbox : WithinBox fm.lcfsX fm.lcfsZ fm.inside)
    (hnull : volume (frontier {p | fm.inside p = true}) = 0)
    (s : ℝ → Source ℝ) (hs : ∀ L, 0 < L → Source.init Real.pi Q sv tr fm arg L none = .ok (s L))
    (r : Reaction) (hrs : r ∈ st) (C : ℝ)
    (hC : ∀ p, fm.inside p = true → |emissivity pr fm.psiNorm r p| ≤ C)
    (hcont : ContinuousOn (emissivity pr fm.psiNorm r) (interior {p | fm.inside p = true})) :
    Tendsto (fun L => (s L).numReactions.getD r 0) (𝓝[>] 0)
        (𝓝 (∫ p in {p | fm.inside p = true}, emissivity pr fm.psiNorm r p * (2 * Real.pi * p.1))) ∧
    Tendsto (fun L => (s L).numNeutrons.getD r 0) (𝓝[>] 0)
        (𝓝 ((∫ p in {p | fm.inside p = true},
          emissivity pr fm.psiNorm r p * (2 * Real.pi * p.1)) * (neutronYield r : ℝ))) := by
  have hlim := riemann_sum fm.lcfsX fm.lcfsZ fm.inside hbox hnull fm.oX fm.oZ
    (fun p => emissivity pr fm.psiNorm r p * (2 * Real.pi * p.1))
    (C * (2 * Real.pi * max |npMin fm.lcfsX| |npMax fm.lcfsX|)) (by
      intro p hp
      obtain ⟨⟨a, ha, ha'⟩, ⟨b, hb, hb'⟩, _⟩ := hbox p hp
      rw [abs_mul, abs_mul, abs_of_pos Real.two_pi_pos]
      refine mul_le_mul (hC p hp) ?_ (by positivity) ((abs_nonneg _).trans (hC p hp))
      refine mul_le_mul_of_nonneg_left ?_ Real.two_pi_pos.le
      exact abs_le_max_abs_abs ((npMin_le _ a ha).trans ha') (hb'.trans (le_npMax _ b hb)))
    (hcont.mul (by fun_prop))
  have hval : ∀ L, 0 < L → (s L).numReactions.getD r 0 =
        ((samplePoints fm.lcfsX fm.lcfsZ fm.inside fm.oX fm.oZ L).map
          (fun p => emissivity pr fm.psiNorm r p * (2 * Real.pi * p.1) * L ^ 2)).sum ∧
      (s L).numNeutrons.getD r 0 = (s L).numReactions.getD r 0 * (neutronYield r : ℝ) := by
    intro L hL
    obtain ⟨e1, -, e3⟩ := (closed_form_aux Real.pi Q sv tr fm pr arg st hst hr L).2 _ (hs L hL)
    obtain ⟨cells, h1, h2, h3⟩ :=
      (C04_bookkeeping (Reachable.constructed (hs L hL))).2.2.2.2.1 r (by rw [e1]; exact hrs)
    have e3 := e3 r hrs
    rw [h1] at e3
    cases e3
    refine ⟨?_, by simp only [Dict.getD, h2, h3, Option.getD_some]⟩
    rw [Dict.getD, h2, Option.getD_some]
    refine congrArg List.sum (List.map_congr_left fun p _ => ?_)
    ring
  have first : Tendsto (fun L => (s L).numReactions.getD r 0) (𝓝[>] 0)
      (𝓝 (∫ p in {p | fm.inside p = true},
        emissivity pr fm.psiNorm r p * (2 * Real.pi * p.1))) := by
    refine hlim.congr' ?_
    filter_upwards [self_mem_nhdsWithin] with L hL
    exact (hval L hL).1.symm
  refine ⟨first, (first.mul_const _).congr' ?_⟩
  filter_upwards [self_mem_nhdsWithin] with L hL
  exact (hval L hL).2.symm

end TNS
