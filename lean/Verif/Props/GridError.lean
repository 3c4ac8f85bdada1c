import Verif.Lemmas.Sweep
import Verif.Props.Green
/-
C78: how far the discretised source is from the continuous one, for every cell side length.
-/

set_option autoImplicit false

namespace TNS
open Spec MeasureTheory Filter Topology

/-! ### The edges tested by the crossing rule are those of the closed line -/

theorem zip_append_left {α : Type} (l : List α) (m : List α) (a b : α) (h : l.length = m.length) :
    List.zip (l ++ [b]) m = List.zip l m := by
  induction l generalizing m with
  | nil =>
    cases m with
    | nil => simp
    | cons c m => simp at h
  | cons d l ih =>
    cases m with
    | nil => simp
    | cons c m =>
      simp only [List.cons_append, List.zip_cons_cons, List.cons.injEq, true_and]
      exact ih m (by simpa using h)

theorem taxicab_append (l : List (ℝ × ℝ)) (b c : ℝ × ℝ) :
    taxicab (l ++ [b, c]) = taxicab (l ++ [b]) + (|c.1 - b.1| + |c.2 - b.2|) := by
  induction l with
  | nil => simp [taxicab]
  | cons a l ih =>
    cases l with
    | nil => simp [taxicab]
    | cons d l =>
      simp only [List.cons_append, taxicab] at ih ⊢
      rw [ih]; ring

/-- The set of points within half a cell, along both axes, of the polygon has area at most
`s² + s·ℓ`. -/
theorem near_polygon (pts : List (ℝ × ℝ)) (hc : ExactlyClosed pts) (s : ℝ) (hs : 0 ≤ s) :
    volume {q : ℝ × ℝ | ∃ e ∈ pathEdges pts, ∃ t, 0 ≤ t ∧ t ≤ 1 ∧
        |(edgePoint e.1 e.2 t).1 - q.1| ≤ s / 2 ∧ |(edgePoint e.1 e.2 t).2 - q.2| ≤ s / 2} ≤
      ENNReal.ofReal (s ^ 2 + s * taxicab pts) := by
  obtain ⟨hne, hcl⟩ := hc
  cases pts with
  | nil => exact absurd rfl hne
  | cons a l =>
    have h := nearLine_volume s hs a (l ++ [a])
    have e1 : List.zip (a :: (l ++ [a])) (l ++ [a]) = pathEdges (a :: l) := by
      have := zip_append_left (a :: l) (l ++ [a]) a a (by simp)
      simpa [pathEdges] using this
    have e2 : taxicab (a :: (l ++ [a])) = taxicab (a :: l) := by
      rcases List.eq_nil_or_concat l with rfl | ⟨m, b, rfl⟩
      · simp [taxicab]
      · have hb : b = a := by
          simp [List.getLast?_cons] at hcl
          exact hcl.symm
        subst hb
        have := taxicab_append (b :: m) b b
        simpa using this
    unfold nearLine at h
    rw [e1, e2] at h
    exact h

/-! ### Weighted sums over the cells -/

/-- The function `1` or `2πx`: its integral over a cell is its value at the centre times the area. -/
def MidpointExact (w : ℝ × ℝ → ℝ) : Prop :=
  Continuous w ∧ ∀ (L : ℝ) (p : ℝ × ℝ), 0 < L → ∫ q in cellSet L p, w q = w p * L ^ 2

theorem midpoint_one : MidpointExact (fun _ => 1) := by
  refine ⟨continuous_const, fun L p hL => ?_⟩
  rw [setIntegral_const, cellSet_real L hL]; simp

theorem midpoint_circumference : MidpointExact (fun q => 2 * Real.pi * q.1) := by
  refine ⟨by fun_prop, fun L p hL => ?_⟩
  have := C15_integral p.1 p.2 L hL
  unfold cellSet
  rw [← this, cellVolume]

theorem stepFn_mul_integral (w : ℝ × ℝ → ℝ) (hw : MidpointExact w) (F : ℝ × ℝ → ℝ) (L : ℝ) (hL : 0 < L)
    (l : List (ℝ × ℝ)) :
    Integrable (fun q => stepFn F L l q * w q) ∧
      ∫ q, stepFn F L l q * w q = (l.map (fun p => F p * (w p * L ^ 2))).sum := by
  induction l with
  | nil => simp [stepFn]
  | cons a l ih =>
    have hwi : IntegrableOn w (cellSet L a) := by
      have : IntegrableOn w (Set.Icc (a.1 - L / 2) (a.1 + L / 2) ×ˢ
          Set.Icc (a.2 - L / 2) (a.2 + L / 2)) :=
        hw.1.continuousOn.integrableOn_compact (isCompact_Icc.prod isCompact_Icc)
      refine this.mono_set ?_
      rw [cellSet_eq]
      exact Set.prod_mono Set.Ico_subset_Icc_self Set.Ico_subset_Icc_self
    have hi : Integrable ((cellSet L a).indicator (fun q => F a * w q)) := by
      rw [integrable_indicator_iff (cellSet_measurable L a)]
      exact hwi.const_mul _
    have he : (fun q => stepFn F L (a :: l) q * w q) =
        (cellSet L a).indicator (fun q => F a * w q) + fun q => stepFn F L l q * w q := by
      funext q
      by_cases h : q ∈ cellSet L a <;> simp [stepFn, h, add_mul]
    rw [he]
    refine ⟨hi.add ih.1, ?_⟩
    have := integral_add hi ih.1
    rw [show (∫ q, ((cellSet L a).indicator (fun q => F a * w q) + fun q => stepFn F L l q * w q) q) = _ from this,
      ih.2, integral_indicator (cellSet_measurable L a), integral_const_mul, hw.2 L a hL]
    simp

theorem inside_nullMeasurable (pts : List (ℝ × ℝ)) :
    interior {p | containsPoint pts p = true} =ᵐ[volume] {p | containsPoint pts p = true} := by
  refine (ae_eq_set).2 ⟨?_, ?_⟩
  · rw [Set.sdiff_eq_empty.2 interior_subset, measure_empty]
  · refine measure_mono_null ?_ (C65_null_boundary pts)
    intro x hx
    exact ⟨subset_closure hx.1, hx.2⟩

theorem inside_finite (pts : List (ℝ × ℝ)) : volume {p | containsPoint pts p = true} ≠ ⊤ := by
  refine ne_top_of_le_ne_top ?_ (measure_mono (t := Set.Icc (npMin (pts.map Prod.fst))
    (npMax (pts.map Prod.fst)) ×ˢ Set.Icc (npMin (pts.map Prod.snd))
    (npMax (pts.map Prod.snd))) ?_)
  · rw [Measure.volume_eq_prod, Measure.prod_prod, Real.volume_Icc, Real.volume_Icc]
    exact (ENNReal.mul_lt_top ENNReal.ofReal_lt_top ENNReal.ofReal_lt_top).ne
  · intro p hp
    obtain ⟨⟨a, ha, ha'⟩, ⟨b, hb, hb'⟩, ⟨c, hc1, hc'⟩, ⟨d, hd, hd'⟩⟩ := C65_within_box pts p hp
    exact ⟨⟨(npMin_le _ a ha).trans ha', hb'.trans (le_npMax _ b hb)⟩,
      (npMin_le _ c hc1).trans hc', hd'.trans (le_npMax _ d hd)⟩

/-- The error of a weighted sum over the cells. -/
theorem grid_error (pts : List (ℝ × ℝ)) (hc : ExactlyClosed pts) (w : ℝ × ℝ → ℝ) (hw : MidpointExact w)
    (f : ℝ × ℝ → ℝ) (C ω W X oX oZ L : ℝ) (hL : 0 < L) (hX : ∀ v ∈ pts, |v.1| ≤ X)
    (hW : ∀ q : ℝ × ℝ, |q.1| ≤ X + L / 2 → |w q| ≤ W) (hC0 : 0 ≤ C) (hω0 : 0 ≤ ω)
    (hC : ∀ p, containsPoint pts p = true → |f p| ≤ C)
    (hω : ∀ p q, containsPoint pts p = true → containsPoint pts q = true →
      |p.1 - q.1| ≤ L / 2 → |p.2 - q.2| ≤ L / 2 → |f p - f q| ≤ ω)
    (hcont : ContinuousOn f (interior {p | containsPoint pts p = true})) :
    |((samplePoints (pts.map Prod.fst) (pts.map Prod.snd) (containsPoint pts) oX oZ L).map
        (fun p => f p * (w p * L ^ 2))).sum - ∫ p in {p | containsPoint pts p = true}, f p * w p| ≤
      W * (ω * volume.real {p | containsPoint pts p = true} + C * (L ^ 2 + L * taxicab pts)) := by
  classical
  have hbox := C65_within_box pts
  set S : Set (ℝ × ℝ) := {p | containsPoint pts p = true} with hS
  set sp := samplePoints (pts.map Prod.fst) (pts.map Prod.snd) (containsPoint pts) oX oZ L with hsp
  set N : Set (ℝ × ℝ) := {q : ℝ × ℝ | ∃ e ∈ pathEdges pts, ∃ t, 0 ≤ t ∧ t ≤ 1 ∧
        |(edgePoint e.1 e.2 t).1 - q.1| ≤ L / 2 ∧ |(edgePoint e.1 e.2 t).2 - q.2| ≤ L / 2} with hN
  have hNv : volume N ≤ ENNReal.ofReal (L ^ 2 + L * taxicab pts) := near_polygon pts hc L hL.le
  have hae := inside_nullMeasurable pts
  have hmeas : NullMeasurableSet S volume :=
    isOpen_interior.measurableSet.nullMeasurableSet.congr hae
  have hfin := inside_finite pts
  have hW0 : 0 ≤ W := by
    obtain ⟨v, hv⟩ := List.exists_mem_of_ne_nil pts hc.1
    exact (abs_nonneg _).trans (hW v ((hX v hv).trans (by linarith)))
  have hx : ∀ p ∈ S, |p.1| ≤ X := by
    intro p hp
    obtain ⟨⟨a, ha, ha'⟩, ⟨b, hb, hb'⟩, _⟩ := hbox p hp
    obtain ⟨a, ha1, rfl⟩ := List.mem_map.1 ha
    obtain ⟨b, hb1, rfl⟩ := List.mem_map.1 hb
    have h1 := abs_le.1 (hX a ha1)
    have h2 := abs_le.1 (hX b hb1)
    rw [abs_le]; constructor <;> linarith [h1.1, h2.2]
  have hcell : ∀ p q : ℝ × ℝ, Cell L p q → |p.1 - q.1| ≤ L / 2 ∧ |p.2 - q.2| ≤ L / 2 := by
    rintro p q ⟨h1, h2, h3, h4⟩
    constructor <;> rw [abs_le] <;> constructor <;> linarith
  -- the discrete side
  obtain ⟨hi, he⟩ := stepFn_mul_integral w hw f L hL sp
  -- the continuous side
  have hfw : AEStronglyMeasurable (fun p => f p * w p) (volume.restrict S) := by
    have h1 : AEStronglyMeasurable (fun p => f p * w p) (volume.restrict (interior S)) :=
      (hcont.mul hw.1.continuousOn).aestronglyMeasurable isOpen_interior.measurableSet
    rwa [Measure.restrict_congr_set hae] at h1
  have hfi : IntegrableOn (fun p => f p * w p) S := by
    haveI : IsFiniteMeasure (volume.restrict S) := ⟨by
      rw [Measure.restrict_apply_univ]; exact hfin.lt_top⟩
    refine Integrable.of_bound hfw (C * W) ?_
    have : ∀ᵐ p ∂(volume.restrict S), p ∈ S := ae_restrict_mem₀ hmeas
    filter_upwards [this] with p hp
    rw [Real.norm_eq_abs, abs_mul]
    exact mul_le_mul (hC p hp) (hW p ((hx p hp).trans (by linarith))) (abs_nonneg _) hC0
  have hfi' : Integrable (S.indicator (fun p => f p * w p)) :=
    hfi.integrable_indicator₀ hmeas
  rw [← he, ← integral_indicator₀ hmeas, ← integral_sub hi hfi']
  set M := toMeasurable volume N with hM
  have hMm : MeasurableSet M := measurableSet_toMeasurable _ _
  have hMv : volume M = volume N := measure_toMeasurable N
  have hMf : volume M ≠ ⊤ := by
    rw [hMv]; exact ne_top_of_le_ne_top ENNReal.ofReal_ne_top hNv
  have hg1 : Integrable (S.indicator (fun _ => W * ω)) :=
    IntegrableOn.integrable_indicator₀ (integrableOn_const hfin) hmeas
  have hg2 : Integrable (M.indicator (fun _ => W * C)) := by
    rw [integrable_indicator_iff hMm]; exact integrableOn_const hMf
  have hbound : ∀ q, ‖stepFn f L sp q * w q - S.indicator (fun p => f p * w p) q‖ ≤
      (S.indicator (fun _ => W * ω) + M.indicator (fun _ => W * C)) q := by
    intro q
    have hWω : 0 ≤ W * ω := mul_nonneg hW0 hω0
    have hWC : 0 ≤ W * C := mul_nonneg hW0 hC0
    have hnear : ∀ p, containsPoint pts p ≠ containsPoint pts q → Cell L p q → q ∈ M := by
      intro p hne hcl
      obtain ⟨e, h1, t, h2, h3, h4, h5⟩ := separated pts p q hne
      obtain ⟨c1, c2⟩ := hcell p q hcl
      exact subset_toMeasurable _ _ ⟨e, h1, t, h2, h3, h4.trans c1, h5.trans c2⟩
    have hwq : ∀ p ∈ S, Cell L p q → |w q| ≤ W := by
      intro p hp hcl
      obtain ⟨c1, _⟩ := hcell p q hcl
      apply hW
      have h1 := abs_le.1 (hx p hp)
      have h2 := abs_le.1 c1
      rw [abs_le]; constructor <;> linarith [h1.1, h1.2, h2.1, h2.2]
    rw [Real.norm_eq_abs, Pi.add_apply]
    by_cases h : ∃ p ∈ sp, Cell L p q
    · obtain ⟨p, hp, hcl⟩ := h
      have hpS : p ∈ S := ((C12_exact _ _ _ hbox oX oZ L hL p).1 hp).2
      have hval : stepFn f L sp q = f p := by
        refine stepFn_unique f L _ (C12_nodup _ _ _ oX oZ L hL) q p hp hcl ?_
        intro p' hp' hc'
        exact C14_disjoint _ _ _ hbox oX oZ L hL p' p q hp' hp hc' hcl
      rw [hval]
      by_cases hq : q ∈ S
      · rw [Set.indicator_of_mem hq, Set.indicator_of_mem hq, ← sub_mul, abs_mul, mul_comm]
        obtain ⟨c1, c2⟩ := hcell p q hcl
        have := mul_le_mul (hwq p hpS hcl) (hω p q hpS hq c1 c2) (abs_nonneg _) hW0
        have h0 : 0 ≤ M.indicator (fun _ => W * C) q := Set.indicator_nonneg (fun _ _ => hWC) q
        linarith
      · rw [Set.indicator_of_notMem hq, Set.indicator_of_notMem hq, sub_zero, zero_add,
          Set.indicator_of_mem, abs_mul, mul_comm]
        · exact mul_le_mul (hwq p hpS hcl) (hC p hpS) (abs_nonneg _) hW0
        · refine hnear p ?_ hcl
          have e1 : containsPoint pts p = true := hpS
          rw [e1]
          exact fun h' => hq h'.symm
    · have hz : stepFn f L sp q = 0 := stepFn_zero f L _ q (by push Not at h; exact h)
      rw [hz, zero_mul, zero_sub, abs_neg]
      by_cases hq : q ∈ S
      · obtain ⟨p, _, hcl, _, hp⟩ := C14_cover _ _ _ hbox oX oZ L hL q
        have hqM : q ∈ M := by
          refine hnear p ?_ hcl
          have e1 : containsPoint pts q = true := hq
          rw [e1]
          intro h'
          exact h ⟨p, hp.1 h', hcl⟩
        rw [Set.indicator_of_mem hq, Set.indicator_of_mem hq, Set.indicator_of_mem hqM, abs_mul, mul_comm]
        have := mul_le_mul (hW q ((hx q hq).trans (by linarith))) (hC q hq) (abs_nonneg _) hW0
        linarith
      · rw [Set.indicator_of_notMem hq, Set.indicator_of_notMem hq, abs_zero, zero_add]
        exact Set.indicator_nonneg (fun _ _ => hWC) q
  refine (norm_integral_le_of_norm_le (hg1.add hg2) (Eventually.of_forall hbound)).trans ?_
  have hMr : volume.real M ≤ L ^ 2 + L * taxicab pts := by
    rw [Measure.real, hMv]
    refine (ENNReal.toReal_mono ENNReal.ofReal_ne_top hNv).trans ?_
    rw [ENNReal.toReal_ofReal (by have := taxicab_nonneg pts; positivity)]
  have e := integral_add hg1 hg2
  simp only [Pi.add_apply] at e ⊢
  rw [e, integral_indicator₀ hmeas, integral_indicator hMm, setIntegral_const, setIntegral_const]
  simp only [smul_eq_mul]
  have := mul_le_mul_of_nonneg_left hMr (mul_nonneg hW0 hC0)
  nlinarith

/-- Area and volume of a polygon that winds once. -/
theorem polygon_measures (pts : List (ℝ × ℝ)) (hc : ExactlyClosed pts) (hl : 3 ≤ pts.length) (σ : ℤ)
    (hw : WindsOnce pts σ) :
    volume.real {p | containsPoint pts p = true} = getArea2d pts ∧
    ∫ p in {p | containsPoint pts p = true}, 2 * Real.pi * p.1 = surfaceVolume pts := by
  obtain ⟨h1, h2⟩ := C17_lcfs_volume pts hc hl σ hw 0 0
  constructor
  · have h3 := riemann_sum (pts.map Prod.fst) (pts.map Prod.snd) (containsPoint pts)
      (C65_within_box pts) (C65_null_boundary pts) 0 0 (fun _ => 1) 1 (by simp) (by fun_prop)
    rw [setIntegral_const, smul_eq_mul, mul_one] at h3
    refine tendsto_nhds_unique (h3.congr fun L => ?_) h2
    simp [sampleSpace2d]
  · exact tendsto_nhds_unique (C17_volume (pts.map Prod.fst) (pts.map Prod.snd) (containsPoint pts)
      (C65_within_box pts) (C65_null_boundary pts) 0 0) h1

/-! ### C78 -/

/-- **C78**, area: for every closed LCFS polygon that winds once around its interior, every origin of the
grid and every cell side length `L`, the area of the sampled cells differs from `lcfs.area` by at most
`L² + L·ℓ`, where `ℓ` is the length of the polygon measured along the axes. -/
theorem C78_area (pts : List (ℝ × ℝ)) (hc : ExactlyClosed pts) (hl : 3 ≤ pts.length) (σ : ℤ)
    (hw : WindsOnce pts σ) (oX oZ L : ℝ) (hL : 0 < L) :
    |((sampleSpace2d Real.pi (pts.map Prod.fst) (pts.map Prod.snd)
      (containsPoint pts) oX oZ L).x.length : ℝ) * L ^ 2 - getArea2d pts| ≤
        L ^ 2 + L * taxicab pts := by
  obtain ⟨X, hX⟩ : ∃ X : ℝ, ∀ v ∈ pts, |v.1| ≤ X :=
    ⟨npMax (pts.map (fun v => |v.1|)), fun v hv =>
      le_npMax (pts.map (fun v => |v.1|)) _ (List.mem_map_of_mem (f := fun v : ℝ × ℝ => |v.1|) hv)⟩
  have h := grid_error pts hc (fun _ => 1) midpoint_one (fun _ => 1) 1 0 1 X oX oZ L hL hX
    (by simp) zero_le_one le_rfl (by simp) (by simp) continuousOn_const
  rw [← (polygon_measures pts hc hl σ hw).1]
  simpa [sampleSpace2d] using h

/-- **C78**, volume: the summed cell volumes differ from `lcfs.volume` by at most that area times the
largest circumference reached by a cell, `2π(X + L/2)` with `X` the largest radius of the LCFS. -/
theorem C78_volume (pts : List (ℝ × ℝ)) (hc : ExactlyClosed pts) (hl : 3 ≤ pts.length) (σ : ℤ)
    (hw : WindsOnce pts σ) (X oX oZ L : ℝ) (hX : ∀ v ∈ pts, |v.1| ≤ X) (hL : 0 < L) :
    |(sampleSpace2d Real.pi (pts.map Prod.fst) (pts.map Prod.snd)
      (containsPoint pts) oX oZ L).dVolume.sum - surfaceVolume pts| ≤
        2 * Real.pi * (X + L / 2) * (L ^ 2 + L * taxicab pts) := by
  have h := grid_error pts hc _ midpoint_circumference (fun _ => 1) 1 0 (2 * Real.pi * (X + L / 2)) X
    oX oZ L hL hX
    (by
      intro q hq
      rw [abs_mul, abs_of_pos Real.two_pi_pos]
      exact mul_le_mul_of_nonneg_left hq Real.two_pi_pos.le)
    zero_le_one le_rfl (by simp) (by simp) continuousOn_const
  rw [← (polygon_measures pts hc hl σ hw).2]
  simp only [one_mul, zero_mul, zero_add] at h
  exact h

/-- **C78**, enough cells: a plasma whose area exceeds `L² + L·ℓ` is never missed by the grid, wherever
its origin. -/
theorem C78_not_empty (pts : List (ℝ × ℝ)) (hc : ExactlyClosed pts) (hl : 3 ≤ pts.length) (σ : ℤ)
    (hw : WindsOnce pts σ) (oX oZ L : ℝ) (hL : 0 < L) (ha : L ^ 2 + L * taxicab pts < getArea2d pts) :
    samplePoints (pts.map Prod.fst) (pts.map Prod.snd) (containsPoint pts) oX oZ L ≠ [] := by
  intro h
  have := C78_area pts hc hl σ hw oX oZ L hL
  simp only [sampleSpace2d, h, List.map_nil, List.length_nil, Nat.cast_zero, zero_mul, zero_sub,
    abs_neg] at this
  exact absurd ((le_abs_self _).trans this) (not_le.2 ha)

/-- **C78**, rates: if inside the LCFS the emissivity of a channel is at most `C` and changes by at most
`ω` within half a cell along both axes, the channel's reaction rate differs from the volume integral of
the emissivity by at most `2π(X + L/2)·(ω·area + C·(L² + L·ℓ))`; the neutron rate by that times the
neutron yield. -/
theorem C78_rates (Q : Reaction → ℝ) (sv : Reaction → List ℝ → Except Err (List ℝ))
    (tr : TransportView ℝ) (fm : FluxMapView ℝ) (pr : Profiles ℝ)
    (arg : SourceArg) (st : List Reaction) (hst : parseSourceType arg = .ok st)
    (hr : Realises pr sv tr fm st)
    (pts : List (ℝ × ℝ)) (hc : ExactlyClosed pts) (hl : 3 ≤ pts.length) (σ : ℤ) (hw : WindsOnce pts σ)
    (h1 : fm.lcfsX = pts.map Prod.fst) (h2 : fm.lcfsZ = pts.map Prod.snd)
    (h3 : fm.inside = containsPoint pts)
    (L : ℝ) (hL : 0 < L) (s : Source ℝ) (hs : Source.init Real.pi Q sv tr fm arg L none = .ok s)
    (r : Reaction) (hrs : r ∈ st) (X C ω : ℝ) (hX : ∀ v ∈ pts, |v.1| ≤ X) (hC0 : 0 ≤ C) (hω0 : 0 ≤ ω)
    (hC : ∀ p, fm.inside p = true → |emissivity pr fm.psiNorm r p| ≤ C)
    (hω : ∀ p q, fm.inside p = true → fm.inside q = true → |p.1 - q.1| ≤ L / 2 → |p.2 - q.2| ≤ L / 2 →
      |emissivity pr fm.psiNorm r p - emissivity pr fm.psiNorm r q| ≤ ω)
    (hcont : ContinuousOn (emissivity pr fm.psiNorm r) (interior {p | fm.inside p = true})) :
    |s.numReactions.getD r 0 -
        ∫ p in {p | fm.inside p = true}, emissivity pr fm.psiNorm r p * (2 * Real.pi * p.1)| ≤
      2 * Real.pi * (X + L / 2) * (ω * getArea2d pts + C * (L ^ 2 + L * taxicab pts)) ∧
    |s.numNeutrons.getD r 0 -
        (∫ p in {p | fm.inside p = true}, emissivity pr fm.psiNorm r p * (2 * Real.pi * p.1)) *
          (neutronYield r : ℝ)| ≤
      2 * Real.pi * (X + L / 2) * (ω * getArea2d pts + C * (L ^ 2 + L * taxicab pts)) *
        (neutronYield r : ℝ) := by
  obtain ⟨e1, -, e3⟩ := (closed_form_aux Real.pi Q sv tr fm pr arg st hst hr L).2 _ hs
  obtain ⟨cells, g1, g2, g3⟩ :=
    (C04_bookkeeping (Reachable.constructed hs)).2.2.2.2.1 r (by rw [e1]; exact hrs)
  have e3 := e3 r hrs
  rw [g1] at e3
  have e3 := Option.some.inj e3
  have hnum : s.numReactions.getD r 0 = cells.sum := by rw [Dict.getD, g2, Option.getD_some]
  have hneu : s.numNeutrons.getD r 0 = s.numReactions.getD r 0 * (neutronYield r : ℝ) := by
    simp only [Dict.getD, g2, g3, Option.getD_some]
  have main : |s.numReactions.getD r 0 -
        ∫ p in {p | fm.inside p = true}, emissivity pr fm.psiNorm r p * (2 * Real.pi * p.1)| ≤
      2 * Real.pi * (X + L / 2) * (ω * getArea2d pts + C * (L ^ 2 + L * taxicab pts)) := by
    rw [hnum, e3, ← (polygon_measures pts hc hl σ hw).1, h1, h2, h3]
    rw [h3] at hC hω hcont
    exact grid_error pts hc _ midpoint_circumference _ C ω (2 * Real.pi * (X + L / 2)) X _ _ L hL hX
      (by
        intro q hq
        rw [abs_mul, abs_of_pos Real.two_pi_pos]
        exact mul_le_mul_of_nonneg_left hq Real.two_pi_pos.le)
      hC0 hω0 hC hω hcont
  refine ⟨main, ?_⟩
  rw [hneu, ← sub_mul, abs_mul, Nat.abs_cast]
  exact mul_le_mul_of_nonneg_right main (Nat.cast_nonneg _)

/-- **C78**, power: the total fusion power differs from the sum over the channels of energy per reaction
times the volume integral of the emissivity by at most the sum of the channels' bounds times `|Q|`. -/
theorem C78_power (Q : Reaction → ℝ) (sv : Reaction → List ℝ → Except Err (List ℝ))
    (tr : TransportView ℝ) (fm : FluxMapView ℝ) (pr : Profiles ℝ)
    (arg : SourceArg) (st : List Reaction) (hst : parseSourceType arg = .ok st)
    (hr : Realises pr sv tr fm st)
    (pts : List (ℝ × ℝ)) (hc : ExactlyClosed pts) (hl : 3 ≤ pts.length) (σ : ℤ) (hw : WindsOnce pts σ)
    (h1 : fm.lcfsX = pts.map Prod.fst) (h2 : fm.lcfsZ = pts.map Prod.snd)
    (h3 : fm.inside = containsPoint pts)
    (L : ℝ) (hL : 0 < L) (s : Source ℝ) (hs : Source.init Real.pi Q sv tr fm arg L none = .ok s)
    (X : ℝ) (C ω : Reaction → ℝ) (hX : ∀ v ∈ pts, |v.1| ≤ X) (hC0 : ∀ r ∈ st, 0 ≤ C r)
    (hω0 : ∀ r ∈ st, 0 ≤ ω r)
    (hC : ∀ r ∈ st, ∀ p, fm.inside p = true → |emissivity pr fm.psiNorm r p| ≤ C r)
    (hω : ∀ r ∈ st, ∀ p q, fm.inside p = true → fm.inside q = true → |p.1 - q.1| ≤ L / 2 →
      |p.2 - q.2| ≤ L / 2 → |emissivity pr fm.psiNorm r p - emissivity pr fm.psiNorm r q| ≤ ω r)
    (hcont : ∀ r ∈ st,
      ContinuousOn (emissivity pr fm.psiNorm r) (interior {p | fm.inside p = true})) :
    |s.totalPower Q - (st.map (fun r => (∫ p in {p | fm.inside p = true},
        emissivity pr fm.psiNorm r p * (2 * Real.pi * p.1)) * Q r)).sum| ≤
      (st.map (fun r => 2 * Real.pi * (X + L / 2) *
        (ω r * getArea2d pts + C r * (L ^ 2 + L * taxicab pts)) * |Q r|)).sum := by
  have hty : s.sourceType = st := by
    obtain ⟨_, _, _, _, _, p0, _⟩ := Source.init_none hs
    rw [hst] at p0
    exact (Except.ok.inj p0).symm
  rw [C11_power (Reachable.constructed hs), hty]
  have key : ∀ r ∈ st, |s.numReactions.getD r 0 * Q r - (∫ p in {p | fm.inside p = true},
      emissivity pr fm.psiNorm r p * (2 * Real.pi * p.1)) * Q r| ≤ 2 * Real.pi * (X + L / 2) *
        (ω r * getArea2d pts + C r * (L ^ 2 + L * taxicab pts)) * |Q r| := by
    intro r hrs
    rw [← sub_mul, abs_mul]
    exact mul_le_mul_of_nonneg_right (C78_rates Q sv tr fm pr arg st hst hr pts hc hl σ hw h1 h2 h3 L hL s hs
      r hrs X (C r) (ω r) hX (hC0 r hrs) (hω0 r hrs) (hC r hrs) (hω r hrs) (hcont r hrs)).1 (abs_nonneg _)
  clear hC hω hcont hst hty hr hC0 hω0
  induction st with
  | nil => simp
  | cons a l ih =>
    simp only [List.map_cons, List.sum_cons]
    rw [add_sub_add_comm]
    exact (abs_add_le _ _).trans (add_le_add (key a List.mem_cons_self)
      (ih fun r h => key r (List.mem_cons_of_mem _ h)))

/-! ### The hypotheses are met: the triangular plasma of `tests/test_space.py` -/

namespace Ex

theorem triangle_taxicab : taxicab triangle = 14 := by
  simp only [triangle, taxicab]; norm_num

theorem triangle_area : getArea2d triangle = 6 := by
  rw [C45_area triangle triangle_closed, contour_eq]
  simp only [triangle, edgeSum, seg_x]
  norm_num

/-- With 5 cm cells between 2119 and 2681 cells are sampled, wherever the magnetic axis is; the
triangle has an area of 6 m², that is 2400 cells. -/
example (oX oZ : ℝ) :
    2119 ≤ ((sampleSpace2d Real.pi (triangle.map Prod.fst) (triangle.map Prod.snd)
      (containsPoint triangle) oX oZ (1 / 20)).x.length : ℝ) ∧
    ((sampleSpace2d Real.pi (triangle.map Prod.fst) (triangle.map Prod.snd)
      (containsPoint triangle) oX oZ (1 / 20)).x.length : ℝ) ≤ 2681 := by
  have h := abs_le.1 (C78_area triangle triangle_closed (by simp [triangle]) 1 triangle_winds oX oZ (1 / 20)
    (by norm_num))
  rw [triangle_taxicab, triangle_area] at h
  constructor <;> linarith [h.1, h.2]

/-- A source with temperature 1 keV per metre of radius, `σv = T²` and one centimetre cells: the D-T
rate is within its bound of the integral. -/
example (Q : Reaction → ℝ) : ∃ s : Source ℝ, Source.init Real.pi Q (fun _ ts => .ok (ts.map (fun t => t ^ 2)))
      triTransport triFlux .none (1 / 100) none = .ok s ∧
    |s.numReactions.getD .DT 0 - ∫ p in {p | containsPoint triangle p = true},
        6 * p.1 ^ 2 * (2 * Real.pi * p.1)| ≤
      2 * Real.pi * (8 + 1 / 200) * (6 * (16 / 200) * 6 + 6 * 64 * (1 / 10000 + 14 / 100)) := by
  have hr : ∀ st, Realises triProfiles (fun _ ts => .ok (ts.map (fun t => t ^ 2))) triTransport
      triFlux st := fun st =>
    ⟨fun _ _ => rfl, fun _ _ => rfl, fun _ _ => rfl, fun _ _ => rfl, fun _ _ _ _ _ => rfl⟩
  have hL : (0 : ℝ) < 1 / 100 := by norm_num
  obtain ⟨s, hs, hst, _⟩ := C10_closed_form Real.pi Q _ triTransport triFlux
    triProfiles .none _ C01_default (hr _) (1 / 100) (List.ne_nil_of_mem (C13_o_point _ _ _
      (C65_within_box triangle) 6 (-1) (1 / 100) hL
        (by norm_num [containsPoint, pathEdges, triangle, crosses])))
  refine ⟨s, hs, ?_⟩
  have hem : ∀ p : ℝ × ℝ, emissivity triProfiles triFlux.psiNorm .DT p = 6 * p.1 ^ 2 := by
    intro p
    simp only [emissivity, rateDensity, reactants, triProfiles, triFlux, reduceCtorEq, if_false]
    norm_num
  have hx : ∀ p, containsPoint triangle p = true → 0 ≤ p.1 ∧ p.1 ≤ 8 := by
    intro p hp
    obtain ⟨⟨a, ha, ha'⟩, ⟨b, hb, hb'⟩, _⟩ := C65_within_box triangle p hp
    simp [triangle] at ha hb
    constructor
    · rcases ha with rfl | rfl | rfl | rfl <;> linarith
    · rcases hb with rfl | rfl | rfl | rfl <;> linarith
  have h := (C78_rates Q _ triTransport triFlux triProfiles .none _ C01_default (hr _) triangle
    triangle_closed (by simp [triangle]) 1 triangle_winds rfl rfl rfl (1 / 100) hL s hs .DT (by decide)
    8 (6 * 64) (6 * (16 / 200))
    (by simp [triangle]; norm_num) (by norm_num) (by norm_num)
    (by
      intro p hp
      obtain ⟨a, b⟩ := hx p hp
      rw [hem, abs_of_nonneg (by positivity)]
      nlinarith)
    (by
      intro p q hp hq h _
      obtain ⟨a, b⟩ := hx p hp
      obtain ⟨c, d⟩ := hx q hq
      rw [hem, hem, ← mul_sub, abs_mul, sq_sub_sq, abs_mul, abs_of_nonneg (by linarith : 0 ≤ p.1 + q.1)]
      have : (p.1 + q.1) * |p.1 - q.1| ≤ 16 * (1 / 100 / 2) :=
        mul_le_mul (by linarith) h (abs_nonneg _) (by norm_num)
      rw [abs_of_pos (by norm_num : (0 : ℝ) < 6)]
      linarith)
    (by
      have : emissivity triProfiles triFlux.psiNorm .DT = fun p => 6 * p.1 ^ 2 := funext hem
      rw [this]; fun_prop)).1
  rw [triangle_taxicab, triangle_area] at h
  simp only [hem] at h
  refine h.trans (le_of_eq ?_)
  norm_num

end Ex
end TNS
