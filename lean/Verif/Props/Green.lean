import Verif.Props.PointInPath
import Mathlib.MeasureTheory.Integral.IntervalIntegral.IntegrationByParts
/-
C17: the limit of the summed cell volumes is `lcfs.volume` (Green's theorem for polygons that wind
once around their interior).
-/

set_option autoImplicit false

namespace TNS
open Spec MeasureTheory Filter Topology

/-- The integral of a function of `x` over the region right of `x = m` and left of the graph of `h`
over heights in `(u, v]`. -/
theorem region_integral (g G : ℝ → ℝ) (hg : Continuous g) (hG : ∀ x, HasDerivAt G (g x) x)
    (m M u v : ℝ) (huv : u < v) (h : ℝ → ℝ) (hh : Continuous h)
    (hm : ∀ z, u < z → z ≤ v → m ≤ h z) (hM : ∀ z, u < z → z ≤ v → h z ≤ M)
    (R : Set (ℝ × ℝ)) (hR : MeasurableSet R)
    (hR' : (∀ p : ℝ × ℝ, p ∈ R ↔ (u < p.2 ∧ p.2 ≤ v) ∧ m < p.1 ∧ p.1 ≤ h p.2) ∨
      (∀ p : ℝ × ℝ, p ∈ R ↔ (u < p.2 ∧ p.2 ≤ v) ∧ m < p.1 ∧ p.1 < h p.2)) :
    Integrable (R.indicator (fun p => g p.1)) ∧
      ∫ p, R.indicator (fun p => g p.1) p = ∫ z in u..v, (G (h z) - G m) := by
  have hsub : R ⊆ Set.Icc m M ×ˢ Set.Icc u v := by
    intro p hp
    rcases hR' with hR' | hR'
    · obtain ⟨⟨h1, h2⟩, h3, h4⟩ := (hR' p).1 hp
      exact ⟨⟨h3.le, h4.trans (hM _ h1 h2)⟩, h1.le, h2⟩
    · obtain ⟨⟨h1, h2⟩, h3, h4⟩ := (hR' p).1 hp
      exact ⟨⟨h3.le, h4.le.trans (hM _ h1 h2)⟩, h1.le, h2⟩
  have hint : Integrable (R.indicator (fun p : ℝ × ℝ => g p.1)) := by
    rw [integrable_indicator_iff hR]
    have hc : ContinuousOn (fun p : ℝ × ℝ => g p.1) (Set.Icc m M ×ˢ Set.Icc u v) := by fun_prop
    exact (hc.integrableOn_compact (isCompact_Icc.prod isCompact_Icc)).mono_set hsub
  refine ⟨hint, ?_⟩
  rw [Measure.volume_eq_prod] at hint ⊢
  rw [integral_prod_symm _ hint]
  have inner : ∀ z, ∫ x, R.indicator (fun p => g p.1) (x, z) =
      (Set.Ioc u v).indicator (fun z => G (h z) - G m) z := by
    intro z
    by_cases hz : z ∈ Set.Ioc u v
    · rw [Set.indicator_of_mem hz]
      have hmz := hm z hz.1 hz.2
      have hftc : ∫ x in m..h z, g x = G (h z) - G m :=
        intervalIntegral.integral_eq_sub_of_hasDerivAt (fun x _ => hG x)
          (hg.intervalIntegrable _ _)
      rw [intervalIntegral.integral_of_le hmz] at hftc
      rw [← hftc]
      rcases hR' with hR' | hR'
      · rw [← integral_indicator measurableSet_Ioc]
        refine integral_congr_ae (Eventually.of_forall fun x => ?_)
        by_cases hx : x ∈ Set.Ioc m (h z)
        · simp only
          rw [Set.indicator_of_mem hx, Set.indicator_of_mem ((hR' (x, z)).2 ⟨hz, hx.1, hx.2⟩)]
        · simp only
          rw [Set.indicator_of_notMem hx,
            Set.indicator_of_notMem fun hp => hx ((hR' (x, z)).1 hp).2]
      · rw [integral_Ioc_eq_integral_Ioo, ← integral_indicator measurableSet_Ioo]
        refine integral_congr_ae (Eventually.of_forall fun x => ?_)
        by_cases hx : x ∈ Set.Ioo m (h z)
        · simp only
          rw [Set.indicator_of_mem hx, Set.indicator_of_mem ((hR' (x, z)).2 ⟨hz, hx.1, hx.2⟩)]
        · simp only
          rw [Set.indicator_of_notMem hx,
            Set.indicator_of_notMem fun hp => hx ((hR' (x, z)).1 hp).2]
    · rw [Set.indicator_of_notMem hz]
      have : ∀ x, R.indicator (fun p => g p.1) (x, z) = 0 := by
        intro x
        refine Set.indicator_of_notMem ?_ _
        intro hp
        rcases hR' with hR' | hR'
        · exact hz ((hR' (x, z)).1 hp).1
        · exact hz ((hR' (x, z)).1 hp).1
      simp [this]
  simp only [inner]
  rw [integral_indicator measurableSet_Ioc, intervalIntegral.integral_of_le huv.le]

theorem abscissa_swap (a b : ℝ × ℝ) (h : a.2 ≠ b.2) (z : ℝ) : abscissa a b z = abscissa b a z := by
  have h1 : b.2 - a.2 ≠ 0 := sub_ne_zero.2 (Ne.symm h)
  have h2 : a.2 - b.2 ≠ 0 := sub_ne_zero.2 h
  unfold abscissa
  field_simp
  ring

theorem abscissa_mem (a b : ℝ × ℝ) (h : a.2 < b.2) (z m M : ℝ) (h1 : a.2 ≤ z) (h2 : z ≤ b.2)
    (ha : m ≤ a.1 ∧ a.1 ≤ M) (hb : m ≤ b.1 ∧ b.1 ≤ M) :
    m ≤ abscissa a b z ∧ abscissa a b z ≤ M := by
  have hd : 0 < b.2 - a.2 := sub_pos.2 h
  unfold abscissa
  set t := (z - a.2) / (b.2 - a.2) with ht
  have t0 : 0 ≤ t := div_nonneg (by linarith) hd.le
  have t1 : t ≤ 1 := by rw [ht, div_le_one hd]; linarith
  constructor <;> nlinarith

/-- Integral along a segment in terms of the height. -/
theorem seg_by_height (G : ℝ → ℝ) (a b : ℝ × ℝ) :
    ∫ z in a.2..b.2, G (abscissa a b z) = segIntegral (fun x _ => G x) a b := by
  unfold segIntegral
  rw [intervalIntegral.integral_mul_const]
  by_cases h : a.2 = b.2
  · simp [h]
  · have hd : b.2 - a.2 ≠ 0 := sub_ne_zero.2 (Ne.symm h)
    have := intervalIntegral.integral_comp_mul_add (a := 0) (b := 1)
      (fun z => G (abscissa a b z)) hd a.2
    simp only [mul_zero, zero_add, mul_one, sub_add_cancel, smul_eq_mul] at this
    have e : ∀ t : ℝ, abscissa a b ((b.2 - a.2) * t + a.2) = a.1 + t * (b.1 - a.1) := by
      intro t; unfold abscissa; field_simp; ring
    simp only [e] at this
    rw [this]
    field_simp

/-- Contribution of one edge. -/
theorem edge_integral (g G : ℝ → ℝ) (hg : Continuous g) (hG : ∀ x, HasDerivAt G (g x) x)
    (m M : ℝ) (a b : ℝ × ℝ) (ha : m ≤ a.1 ∧ a.1 ≤ M) (hb : m ≤ b.1 ∧ b.1 ≤ M) :
    Integrable (fun p : ℝ × ℝ => if m < p.1 then g p.1 * (signedCross p a b : ℝ) else 0) ∧
      ∫ p : ℝ × ℝ, (if m < p.1 then g p.1 * (signedCross p a b : ℝ) else 0) =
        segIntegral (fun x _ => G x) a b - G m * (b.2 - a.2) := by
  classical
  have hcont : ∀ a b : ℝ × ℝ, Continuous (abscissa a b) := by
    intro a b; unfold abscissa; fun_prop
  have hGc : Continuous G := continuous_iff_continuousAt.2 fun x => (hG x).continuousAt
  have hsplit : ∀ a b : ℝ × ℝ, ∫ z in a.2..b.2, (G (abscissa a b z) - G m) =
      segIntegral (fun x _ => G x) a b - G m * (b.2 - a.2) := by
    intro a b
    have hi : IntervalIntegrable (fun z => G (abscissa a b z)) volume a.2 b.2 :=
      (hGc.comp (hcont a b)).intervalIntegrable _ _
    have hi' : IntervalIntegrable (fun _ : ℝ => G m) volume a.2 b.2 := by simp
    rw [intervalIntegral.integral_sub hi hi', seg_by_height]
    simp [mul_comm]
  rcases lt_trichotomy a.2 b.2 with h | h | h
  · have hR : MeasurableSet {p : ℝ × ℝ | (a.2 < p.2 ∧ p.2 ≤ b.2) ∧ m < p.1 ∧
        p.1 ≤ abscissa a b p.2} := by
      refine ((measurableSet_lt measurable_const measurable_snd).inter
        (measurableSet_le measurable_snd measurable_const)).inter
        ((measurableSet_lt measurable_const measurable_fst).inter
        (measurableSet_le measurable_fst ((hcont a b).measurable.comp measurable_snd)))
    obtain ⟨r1, r2⟩ := region_integral g G hg hG m M a.2 b.2 h (abscissa a b) (hcont a b)
      (fun z h1 h2 => (abscissa_mem a b h z m M h1.le h2 ha hb).1)
      (fun z h1 h2 => (abscissa_mem a b h z m M h1.le h2 ha hb).2) _ hR (Or.inl fun p => Iff.rfl)
    have he : (fun p : ℝ × ℝ => if m < p.1 then g p.1 * (signedCross p a b : ℝ) else 0) =
        Set.indicator {p : ℝ × ℝ | (a.2 < p.2 ∧ p.2 ≤ b.2) ∧ m < p.1 ∧ p.1 ≤ abscissa a b p.2}
          (fun p => g p.1) := by
      funext p
      have hd : ¬ DownCross p a b := fun hh => absurd (hh.1.trans_le hh.2.1) (not_lt.2 h.le)
      by_cases hp : (a.2 < p.2 ∧ p.2 ≤ b.2) ∧ m < p.1 ∧ p.1 ≤ abscissa a b p.2
      · rw [Set.indicator_of_mem (s := {p : ℝ × ℝ | (a.2 < p.2 ∧ p.2 ≤ b.2) ∧ m < p.1 ∧ p.1 ≤ abscissa a b p.2}) hp, if_pos hp.2.1]
        have hu : UpCross p a b := ⟨hp.1.1, hp.1.2, hp.2.2⟩
        simp [signedCross, hd, hu]
      · rw [Set.indicator_of_notMem (s := {p : ℝ × ℝ | (a.2 < p.2 ∧ p.2 ≤ b.2) ∧ m < p.1 ∧ p.1 ≤ abscissa a b p.2}) hp]
        split
        · have hu : ¬ UpCross p a b := fun hu => hp ⟨⟨hu.1, hu.2.1⟩, by assumption, hu.2.2⟩
          simp [signedCross, hd, hu]
        · rfl
    rw [he]
    exact ⟨r1, r2.trans (hsplit a b)⟩
  · have he : (fun p : ℝ × ℝ => if m < p.1 then g p.1 * (signedCross p a b : ℝ) else 0) =
        fun _ => 0 := by
      funext p
      have hd : ¬ DownCross p a b := fun hh => absurd (hh.1.trans_le hh.2.1) (not_lt.2 h.le)
      have hu : ¬ UpCross p a b := fun hh => absurd (hh.1.trans_le hh.2.1) (not_lt.2 h.ge)
      simp [signedCross, hd, hu]
    rw [he]
    refine ⟨integrable_zero _ _ _, ?_⟩
    simp [segIntegral, h]
  · have hR : MeasurableSet {p : ℝ × ℝ | (b.2 < p.2 ∧ p.2 ≤ a.2) ∧ m < p.1 ∧
        p.1 < abscissa a b p.2} := by
      refine ((measurableSet_lt measurable_const measurable_snd).inter
        (measurableSet_le measurable_snd measurable_const)).inter
        ((measurableSet_lt measurable_const measurable_fst).inter
        (measurableSet_lt measurable_fst ((hcont a b).measurable.comp measurable_snd)))
    have hsw : ∀ z, abscissa a b z = abscissa b a z := abscissa_swap a b h.ne'
    obtain ⟨r1, r2⟩ := region_integral g G hg hG m M b.2 a.2 h (abscissa a b) (hcont a b)
      (fun z h1 h2 => by rw [hsw]; exact (abscissa_mem b a h z m M h1.le h2 hb ha).1)
      (fun z h1 h2 => by rw [hsw]; exact (abscissa_mem b a h z m M h1.le h2 hb ha).2) _ hR
      (Or.inr fun p => Iff.rfl)
    have he : (fun p : ℝ × ℝ => if m < p.1 then g p.1 * (signedCross p a b : ℝ) else 0) =
        fun p => -Set.indicator {p : ℝ × ℝ | (b.2 < p.2 ∧ p.2 ≤ a.2) ∧ m < p.1 ∧
          p.1 < abscissa a b p.2} (fun p => g p.1) p := by
      funext p
      have hu : ¬ UpCross p a b := fun hh => absurd (hh.1.trans_le hh.2.1) (not_lt.2 h.le)
      by_cases hp : (b.2 < p.2 ∧ p.2 ≤ a.2) ∧ m < p.1 ∧ p.1 < abscissa a b p.2
      · rw [Set.indicator_of_mem (s := {p : ℝ × ℝ | (b.2 < p.2 ∧ p.2 ≤ a.2) ∧ m < p.1 ∧ p.1 < abscissa a b p.2}) hp, if_pos hp.2.1]
        have hd : DownCross p a b := ⟨hp.1.1, hp.1.2, hp.2.2⟩
        simp [signedCross, hd, hu]
      · rw [Set.indicator_of_notMem (s := {p : ℝ × ℝ | (b.2 < p.2 ∧ p.2 ≤ a.2) ∧ m < p.1 ∧ p.1 < abscissa a b p.2}) hp]
        split
        · have hd : ¬ DownCross p a b := fun hu => hp ⟨⟨hu.1, hu.2.1⟩, by assumption, hu.2.2⟩
          simp [signedCross, hd, hu]
        · simp
    rw [he]
    refine ⟨r1.neg, ?_⟩
    rw [integral_neg, r2, ← hsplit a b, intervalIntegral.integral_symm, neg_neg]

/-- Sum over all edges. -/
theorem winding_integral (g G : ℝ → ℝ) (hg : Continuous g) (hG : ∀ x, HasDerivAt G (g x) x)
    (m M : ℝ) (pts : List (ℝ × ℝ)) (hp : ∀ v ∈ pts, m ≤ v.1 ∧ v.1 ≤ M) :
    Integrable (fun p : ℝ × ℝ => if m < p.1 then g p.1 * (winding p pts : ℝ) else 0) ∧
      ∫ p : ℝ × ℝ, (if m < p.1 then g p.1 * (winding p pts : ℝ) else 0) =
        contour (fun x _ => G x) pts - G m * edgeSum (fun p q => q.2 - p.2) pts := by
  induction pts with
  | nil => simp [winding, contour, edgeSum]
  | cons a l ih =>
    cases l with
    | nil => simp [winding, contour, edgeSum]
    | cons b l =>
      obtain ⟨i1, i2⟩ := ih fun v hv => hp v (List.mem_cons_of_mem _ hv)
      obtain ⟨j1, j2⟩ := edge_integral g G hg hG m M a b (hp a (by simp)) (hp b (by simp))
      have he : (fun p : ℝ × ℝ => if m < p.1 then g p.1 * (winding p (a :: b :: l) : ℝ) else 0) =
          fun p => (if m < p.1 then g p.1 * (signedCross p a b : ℝ) else 0) +
            (if m < p.1 then g p.1 * (winding p (b :: l) : ℝ) else 0) := by
        funext p
        split
        · rw [winding]; push_cast; ring
        · simp
      rw [he]
      refine ⟨j1.add i1, ?_⟩
      rw [integral_add j1 i1, i2, j2, contour, edgeSum]
      ring

/-- Green's theorem: for a closed polygon that winds once around its interior, integrals over the
accepted set are contour integrals. -/
theorem green (g G : ℝ → ℝ) (hg : Continuous g) (hG : ∀ x, HasDerivAt G (g x) x)
    (pts : List (ℝ × ℝ)) (hc : ExactlyClosed pts) (hl : 3 ≤ pts.length) (σ : ℤ)
    (hw : WindsOnce pts σ) :
    ∫ p in {p | containsPoint pts p = true}, g p.1 = σ * contour (fun x _ => G x) pts := by
  classical
  set S : Set (ℝ × ℝ) := {p | containsPoint pts p = true} with hS
  have hbox := C65_within_box pts
  have hnull := C65_null_boundary pts
  have hmeas : NullMeasurableSet S volume := by
    have : interior S =ᵐ[volume] S := by
      refine (ae_eq_set).2 ⟨?_, ?_⟩
      · rw [Set.sdiff_eq_empty.2 interior_subset, measure_empty]
      · refine measure_mono_null ?_ hnull
        intro x hx
        exact ⟨subset_closure hx.1, hx.2⟩
    exact isOpen_interior.measurableSet.nullMeasurableSet.congr this
  set m := npMin (pts.map Prod.fst) - 1 with hm
  have hb : ∀ v ∈ pts, m < v.1 ∧ v.1 ≤ npMax (pts.map Prod.fst) := by
    intro v hv
    have h1 := npMin_le (pts.map Prod.fst) v.1 (List.mem_map_of_mem hv)
    have h2 := le_npMax (pts.map Prod.fst) v.1 (List.mem_map_of_mem hv)
    exact ⟨by linarith, h2⟩
  obtain ⟨_, w2⟩ := winding_integral g G hg hG m (npMax (pts.map Prod.fst)) pts
    (fun v hv => ⟨(hb v hv).1.le, (hb v hv).2⟩)
  have hz := edgeSum_closed (fun p => p.2) pts hc
  rw [hz, mul_zero, sub_zero] at w2
  rw [← integral_indicator₀ hmeas, ← w2, ← integral_const_mul]
  refine integral_congr_ae ?_
  filter_upwards [hw.2] with p hp
  have hsig : (σ : ℝ) * σ = 1 := by rcases hw.1 with h | h <;> simp [h]
  have hodd : Odd σ := by rcases hw.1 with h | h <;> simp [h]
  by_cases hin : p ∈ S
  · have hwp : winding p pts = σ := by
      rcases hp with h | h
      · have := (C65_winding pts hc.2 hl p).1 hin
        rw [h] at this
        simp at this
      · exact h
    have hmp : m < p.1 := by
      obtain ⟨⟨x, hx, hxp⟩, _⟩ := hbox p hin
      have := npMin_le _ x hx
      linarith
    rw [Set.indicator_of_mem hin, if_pos hmp, hwp]
    rw [mul_comm (g p.1), ← mul_assoc, hsig, one_mul]
  · have hwp : winding p pts = 0 := by
      rcases hp with h | h
      · exact h
      · exact absurd ((C65_winding pts hc.2 hl p).2 (h ▸ hodd)) hin
    rw [Set.indicator_of_notMem hin, hwp]
    simp

/-- **C17**, `lcfs.volume`: with matplotlib's crossing test, the summed cell volumes of any closed LCFS
polygon that winds once around its interior converge to `lcfs.volume`, and the number of cells times the
cell area to `lcfs.area`, as the cell side length tends to zero. -/
theorem C17_lcfs_volume (pts : List (ℝ × ℝ)) (hc : ExactlyClosed pts) (hl : 3 ≤ pts.length) (σ : ℤ)
    (hw : WindsOnce pts σ) (oX oZ : ℝ) :
    Tendsto (fun L : ℝ => (sampleSpace2d Real.pi (pts.map Prod.fst) (pts.map Prod.snd)
      (containsPoint pts) oX oZ L).dVolume.sum) (𝓝[>] 0) (𝓝 (surfaceVolume pts)) ∧
    Tendsto (fun L : ℝ => ((sampleSpace2d Real.pi (pts.map Prod.fst) (pts.map Prod.snd)
      (containsPoint pts) oX oZ L).x.length : ℝ) * L ^ 2) (𝓝[>] 0) (𝓝 (getArea2d pts)) := by
  have hsig : (σ : ℝ) * σ = 1 := by rcases hw.1 with h | h <;> simp [h]
  have hA := green (fun _ => 1) (fun x => x) continuous_const (fun x => hasDerivAt_id x) pts hc hl σ hw
  have hV := green (fun x => 2 * Real.pi * x) (fun x => Real.pi * x ^ 2) (by fun_prop)
    (fun x => by
      have := (hasDerivAt_pow 2 x).const_mul Real.pi
      refine this.congr_deriv ?_
      simp; ring) pts hc hl σ hw
  have hVc : contour (fun x _ => Real.pi * x ^ 2) pts =
      Real.pi * contour (fun x _ => x ^ 2) pts := by
    rw [contour_eq, contour_eq, ← edgeSum_mul]
    refine edgeSum_congr _ _ (fun p q => ?_) pts
    unfold segIntegral
    rw [← intervalIntegral.integral_const_mul]
    simp only [mul_assoc]
  have hpos : 0 ≤ (σ : ℝ) * contour (fun x _ => x) pts := by
    rw [← hA]; exact integral_nonneg fun _ => zero_le_one
  have harea : (σ : ℝ) * contour (fun x _ => x) pts = getArea2d pts := by
    rw [C45_area pts hc, ← abs_of_nonneg hpos, abs_mul]
    have : |(σ : ℝ)| = 1 := by rcases hw.1 with h | h <;> simp [h]
    rw [this, one_mul]
  constructor
  · have h1 := C17_volume (pts.map Prod.fst) (pts.map Prod.snd) (containsPoint pts)
      (C65_within_box pts) (C65_null_boundary pts) oX oZ
    have h2 : ∫ p in {p | containsPoint pts p = true}, 2 * Real.pi * p.1 = surfaceVolume pts := by
      by_cases h0 : getArea2d pts = 0
      · have hmeas0 : volume {p | containsPoint pts p = true} = 0 := by
          have hfin : volume {p | containsPoint pts p = true} ≠ ⊤ := by
            refine ne_top_of_le_ne_top ?_ (measure_mono (t := Set.Icc (npMin (pts.map Prod.fst))
              (npMax (pts.map Prod.fst)) ×ˢ Set.Icc (npMin (pts.map Prod.snd))
              (npMax (pts.map Prod.snd))) ?_)
            · rw [Measure.volume_eq_prod, Measure.prod_prod, Real.volume_Icc, Real.volume_Icc]
              exact (ENNReal.mul_lt_top ENNReal.ofReal_lt_top ENNReal.ofReal_lt_top).ne
            · intro p hp
              obtain ⟨⟨a, ha, ha'⟩, ⟨b, hb, hb'⟩, ⟨c, hc1, hc'⟩, ⟨d, hd, hd'⟩⟩ :=
                C65_within_box pts p hp
              exact ⟨⟨(npMin_le _ a ha).trans ha', hb'.trans (le_npMax _ b hb)⟩,
                (npMin_le _ c hc1).trans hc', hd'.trans (le_npMax _ d hd)⟩
          rw [harea, h0, setIntegral_const, smul_eq_mul, mul_one, Measure.real,
            ENNReal.toReal_eq_zero_iff] at hA
          exact hA.resolve_right hfin
        rw [setIntegral_measure_zero _ hmeas0, surfaceVolume, h0]
        simp
      · rw [hV, hVc, C45_volume pts hc]
        have hne : contour (fun x _ => x) pts ≠ 0 := by
          intro h; apply h0; rw [← harea, h, mul_zero]
        have hs : ((SignType.sign (contour (fun x _ => x) pts) : SignType) : ℝ) = σ := by
          rcases hw.1 with h | h
          · rw [h] at hpos ⊢
            simp only [Int.cast_one, one_mul] at hpos
            rw [sign_pos (lt_of_le_of_ne hpos hne.symm)]; simp
          · rw [h] at hpos ⊢
            simp only [Int.cast_neg, Int.cast_one, neg_mul, one_mul] at hpos
            rw [sign_neg (lt_of_le_of_ne (by linarith) hne)]; simp
        rw [hs]; ring
    rw [← h2]
    exact h1
  · have h1 := riemann_sum (pts.map Prod.fst) (pts.map Prod.snd) (containsPoint pts)
      (C65_within_box pts) (C65_null_boundary pts) oX oZ (fun _ => 1) 1 (by simp) (by fun_prop)
    rw [hA, harea] at h1
    refine h1.congr fun L => ?_
    simp [sampleSpace2d]

/-- **C17**, power: under the hypotheses of `C17_rates` for every channel, the total fusion power
converges to the sum over the channels of energy per reaction times the volume integral of the
emissivity. -/
theorem C17_power (Q : Reaction → ℝ) (sv : Reaction → List ℝ → Except Err (List ℝ))
    (tr : TransportView ℝ) (fm : FluxMapView ℝ) (pr : Profiles ℝ)
    (arg : SourceArg) (st : List Reaction) (hst : parseSourceType arg = .ok st)
    (hr : Realises pr sv tr fm st) (hbox : WithinBox fm.lcfsX fm.lcfsZ fm.inside)
    (hnull : volume (frontier {p | fm.inside p = true}) = 0)
    (s : ℝ → Source ℝ) (hs : ∀ L, 0 < L → Source.init Real.pi Q sv tr fm arg L none = .ok (s L))
    (C : ℝ)
    (hC : ∀ r ∈ st, ∀ p, fm.inside p = true → |emissivity pr fm.psiNorm r p| ≤ C)
    (hcont : ∀ r ∈ st,
      ContinuousOn (emissivity pr fm.psiNorm r) (interior {p | fm.inside p = true})) :
    Tendsto (fun L => (s L).totalPower Q) (𝓝[>] 0)
      (𝓝 (st.map (fun r => (∫ p in {p | fm.inside p = true},
        emissivity pr fm.psiNorm r p * (2 * Real.pi * p.1)) * Q r)).sum) := by
  have hty : ∀ L, 0 < L → (s L).sourceType = st := by
    intro L hL
    obtain ⟨_, _, _, _, _, p0, _⟩ := Source.init_none (hs L hL)
    rw [hst] at p0
    exact (Except.ok.inj p0).symm
  have hpow : (fun L => (st.map (fun r => (s L).numReactions.getD r 0 * Q r)).sum) =ᶠ[𝓝[>] 0]
      fun L => (s L).totalPower Q := by
    filter_upwards [self_mem_nhdsWithin] with L hL
    rw [C11_power (Reachable.constructed (hs L hL)), hty L hL]
  refine Tendsto.congr' hpow ?_
  have hlim : ∀ r ∈ st, Tendsto (fun L => (s L).numReactions.getD r 0 * Q r) (𝓝[>] 0)
      (𝓝 ((∫ p in {p | fm.inside p = true},
        emissivity pr fm.psiNorm r p * (2 * Real.pi * p.1)) * Q r)) := by
    intro r hrs
    exact (C17_rates Q sv tr fm pr arg st hst hr hbox hnull s hs r hrs C (hC r hrs)
      (hcont r hrs)).1.mul_const _
  clear hC hcont hst hty hpow hr
  induction st with
  | nil => simp
  | cons a l ih =>
    simp only [List.map_cons, List.sum_cons]
    exact (hlim a List.mem_cons_self).add (ih fun r h => hlim r (List.mem_cons_of_mem _ h))

/-! ### The hypotheses are met: the triangular plasma of the repository's `tests/test_space.py` -/

namespace Ex

/-- `ClosedFluxSurface(x=[4, 8, 6, 4], z=[-2, -2, 1, -2])`. -/
def triangle : List (ℝ × ℝ) := [(4, -2), (8, -2), (6, 1), (4, -2)]

theorem triangle_closed : ExactlyClosed triangle := ⟨by simp [triangle], by simp [triangle]⟩

theorem triangle_winds : WindsOnce triangle 1 := by
  refine ⟨Or.inl rfl, Eventually.of_forall fun p => ?_⟩
  have h1 : signedCross p (4, -2) (8, -2) = 0 := by
    have hd : ¬ DownCross p (4, -2) (8, -2) := fun hh => absurd (hh.1.trans_le hh.2.1) (lt_irrefl _)
    have hu : ¬ UpCross p (4, -2) (8, -2) := fun hh => absurd (hh.1.trans_le hh.2.1) (lt_irrefl _)
    simp [signedCross, hd, hu]
  have h2 : ¬ DownCross p (8, -2) (6, 1) := fun hh =>
    absurd (hh.1.trans_le hh.2.1) (by norm_num)
  have h3 : ¬ UpCross p (6, 1) (4, -2) := fun hh =>
    absurd (hh.1.trans_le hh.2.1) (by norm_num)
  have h4 : DownCross p (6, 1) (4, -2) → UpCross p (8, -2) (6, 1) := by
    rintro ⟨a, b, c⟩
    refine ⟨a, b, ?_⟩
    simp only [abscissa] at a b c ⊢
    norm_num at a b c ⊢
    linarith
  simp only [triangle, winding, h1]
  by_cases hd : DownCross p (6, 1) (4, -2)
  · simp [signedCross, h2, h3, hd, h4 hd]
  · by_cases hu : UpCross p (8, -2) (6, 1) <;> simp [signedCross, h2, h3, hd, hu]

/-- The grid volumes converge to `lcfs.volume`, which for this triangle is 72π m³. -/
example : Tendsto (fun L : ℝ => (sampleSpace2d Real.pi (triangle.map Prod.fst)
    (triangle.map Prod.snd) (containsPoint triangle) 6 (-1) L).dVolume.sum) (𝓝[>] 0)
    (𝓝 (72 * Real.pi)) := by
  have h := (C17_lcfs_volume triangle triangle_closed (by simp [triangle]) 1 triangle_winds 6 (-1)).1
  have e : surfaceVolume triangle = 72 * Real.pi := by
    rw [C45_volume triangle triangle_closed, contour_eq, contour_eq]
    simp only [triangle, edgeSum, seg_x, seg_xx]
    norm_num
    ring
  rwa [e] at h

/-- A source in that plasma: the flux label is the radius, the temperature 1 keV per metre. -/
noncomputable def triFlux : FluxMapView ℝ :=
  { lcfsX := triangle.map Prod.fst, lcfsZ := triangle.map Prod.snd, inside := containsPoint triangle
    oX := 6, oZ := -1, psiNorm := fun x _ => x }

noncomputable def triTransport : TransportView ℝ :=
  { temperature := fun p => .ok p, deuterium := fun _ => .ok 2, tritium := fun _ => .ok 3
    helium3 := fun _ => .ok 0 }

noncomputable def triProfiles : Profiles ℝ :=
  { temperature := fun p => p
    density := fun sp _ => match sp with | .deuterium => 2 | .tritium => 3 | .helium3 => 0
    sv := fun _ t => t ^ 2 }

/-- A default source on every grid; its total power converges. -/
example (Q : Reaction → ℝ) : ∃ (s : ℝ → Source ℝ) (P : ℝ),
    (∀ L, 0 < L → Source.init Real.pi Q (fun _ ts => .ok (ts.map (fun t => t ^ 2))) triTransport
      triFlux .none L none = .ok (s L)) ∧
    Tendsto (fun L => (s L).totalPower Q) (𝓝[>] 0) (𝓝 P) := by
  have hr : ∀ st, Realises triProfiles (fun _ ts => .ok (ts.map (fun t => t ^ 2))) triTransport
      triFlux st := fun st =>
    ⟨fun _ _ => rfl, fun _ _ => rfl, fun _ _ => rfl, fun _ _ => rfl, fun _ _ _ _ _ => rfl⟩
  have hax : containsPoint triangle (6, -1) = true := by
    norm_num [containsPoint, pathEdges, triangle, crosses]
  have hex : ∀ L : ℝ, ∃ s : Source ℝ, 0 < L → Source.init Real.pi Q
      (fun _ ts => .ok (ts.map (fun t => t ^ 2))) triTransport triFlux .none L none = .ok s := by
    intro L
    by_cases hL : 0 < L
    · obtain ⟨s, hs, _⟩ := C10_closed_form Real.pi Q _ triTransport triFlux
        triProfiles .none _ C01_default (hr _) L (List.ne_nil_of_mem (C13_o_point _ _ _
          (C65_within_box triangle) 6 (-1) L hL hax))
      exact ⟨s, fun _ => hs⟩
    · exact ⟨⟨[], [], [], [], 0, [], [], [], []⟩, fun h => absurd h hL⟩
  choose s hs using hex
  refine ⟨s, _, hs, C17_power Q _ triTransport triFlux triProfiles .none _ C01_default
    (hr _) (C65_within_box triangle) (C65_null_boundary triangle) s hs
    (9 * 8 ^ 2) ?_ ?_⟩
  · intro r _ p hp
    have hx : 0 ≤ p.1 ∧ p.1 ≤ 8 := by
      obtain ⟨⟨a, ha, ha'⟩, ⟨b, hb, hb'⟩, _⟩ := C65_within_box triangle p hp
      simp [triangle] at ha hb
      constructor
      · rcases ha with rfl | rfl | rfl | rfl <;> linarith
      · rcases hb with rfl | rfl | rfl | rfl <;> linarith
    have h2 : p.1 ^ 2 ≤ 8 ^ 2 := by nlinarith [hx.1, hx.2]
    rcases r with (_ | _ | _) | (_ | _) <;>
      simp only [emissivity, rateDensity, reactants, triProfiles, triFlux, reduceCtorEq, if_true,
        if_false] <;> rw [abs_of_nonneg (by positivity)] <;> nlinarith [sq_nonneg p.1]
  · intro r _
    unfold emissivity
    rcases r with (_ | _ | _) | (_ | _) <;>
      simp only [rateDensity, reactants, triProfiles, triFlux, reduceCtorEq, if_true,
        if_false] <;> fun_prop

end Ex
end TNS
