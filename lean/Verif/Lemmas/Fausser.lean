import Verif.Model.Flux
import Mathlib.Analysis.SpecialFunctions.Trigonometric.InverseDeriv
import Mathlib.Analysis.SpecialFunctions.Trigonometric.Bounds
import Mathlib.Analysis.Convex.Deriv
import Mathlib.Analysis.Real.Pi.Bounds
/-
The normalised Fausser surface `alpha ↦ (cos (alpha + delta sin alpha), sin alpha)` bounds a convex
set for every triangularity in [-1, 1].
-/

set_option autoImplicit false

namespace TNS
noncomputable section

/-- Curvature of the normalised surface (numerator). -/
theorem curvature_pos (d al : ℝ) (hd : -1 ≤ d ∧ d ≤ 1) (h0 : -(Real.pi / 2) < al)
    (h1 : al < Real.pi / 2) :
    0 ≤ Real.sin (al + d * Real.sin al) * Real.sin al +
      (1 + d * Real.cos al) ^ 2 * Real.cos al * Real.cos (al + d * Real.sin al) := by
  have hc : 0 < Real.cos al := Real.cos_pos_of_mem_Ioo ⟨h0, h1⟩
  rcases le_total d 0 with hd0 | hd0
  · have hu : |al + d * Real.sin al| ≤ |al| ∧ 0 ≤ (al + d * Real.sin al) * al := by
      rcases le_total 0 al with h | h
      · have e1 : Real.sin al ≤ al := Real.sin_le h
        have e2 : 0 ≤ Real.sin al :=
          Real.sin_nonneg_of_nonneg_of_le_pi h (by linarith [Real.pi_pos])
        have e3 : 0 ≤ al + d * Real.sin al := by nlinarith [hd.1]
        refine ⟨?_, mul_nonneg e3 h⟩
        rw [abs_of_nonneg e3, abs_of_nonneg h]; nlinarith
      · have e1 : al ≤ Real.sin al := Real.le_sin h
        have e2 : Real.sin al ≤ 0 :=
          Real.sin_nonpos_of_nonpos_of_neg_pi_le h (by linarith [Real.pi_pos])
        have e3 : al + d * Real.sin al ≤ 0 := by nlinarith [hd.1]
        refine ⟨?_, mul_nonneg_of_nonpos_of_nonpos e3 h⟩
        rw [abs_of_nonpos e3, abs_of_nonpos h]; nlinarith
    have ha : |al| < Real.pi / 2 := abs_lt.2 ⟨h0, h1⟩
    have hu1 := abs_le.1 hu.1
    have hu2 := abs_lt.1 (lt_of_le_of_lt hu.1 ha)
    have hcu : 0 ≤ Real.cos (al + d * Real.sin al) :=
      (Real.cos_pos_of_mem_Ioo ⟨hu2.1, hu2.2⟩).le
    have hsu : 0 ≤ Real.sin (al + d * Real.sin al) * Real.sin al := by
      rcases lt_trichotomy al 0 with h | h | h
      · have : al + d * Real.sin al ≤ 0 := by nlinarith [hu.2]
        exact mul_nonneg_of_nonpos_of_nonpos
          (Real.sin_nonpos_of_nonpos_of_neg_pi_le this (by linarith [Real.pi_pos]))
          (Real.sin_nonpos_of_nonpos_of_neg_pi_le h.le (by linarith [Real.pi_pos]))
      · simp [h]
      · have : 0 ≤ al + d * Real.sin al := by nlinarith [hu.2]
        exact mul_nonneg
          (Real.sin_nonneg_of_nonneg_of_le_pi this (by linarith [Real.pi_pos]))
          (Real.sin_nonneg_of_nonneg_of_le_pi h.le (by linarith [Real.pi_pos]))
    have := mul_nonneg (mul_nonneg (sq_nonneg (1 + d * Real.cos al)) hc.le) hcu
    linarith
  have hcs := Real.sin_sq_add_cos_sq al
  have hs1 : |Real.sin al| ≤ 1 := Real.abs_sin_le_one al
  rw [Real.sin_add, Real.cos_add]
  set s := Real.sin al
  set c := Real.cos al
  have hw : |d * s| ≤ 1 := by
    rw [abs_mul]
    exact mul_le_one₀ (abs_le.2 hd) (abs_nonneg _) hs1
  have hcw : 1 - (d * s) ^ 2 / 2 ≤ Real.cos (d * s) := Real.one_sub_sq_div_two_le_cos
  -- s * sin (d s) * d ≤ (d s)^2
  have hsw : s * d * Real.sin (d * s) ≤ (d * s) ^ 2 := by
    have h1 : |Real.sin (d * s)| ≤ |d * s| := Real.abs_sin_le_abs
    have h2 : d * s * Real.sin (d * s) ≤ |d * s| * |Real.sin (d * s)| := by
      rw [← abs_mul]; exact le_abs_self _
    have h3 : |d * s| * |Real.sin (d * s)| ≤ |d * s| * |d * s| :=
      mul_le_mul_of_nonneg_left h1 (abs_nonneg _)
    rw [abs_mul_abs_self] at h3
    nlinarith
  have hsw0 : 0 ≤ s * d * Real.sin (d * s) := by
    have : 0 ≤ (d * s) * Real.sin (d * s) := by
      rcases le_total 0 (d * s) with h | h
      · exact mul_nonneg h (Real.sin_nonneg_of_nonneg_of_le_pi h
          (by have := (abs_le.1 hw).2; linarith [Real.pi_gt_three]))
      · exact mul_nonneg_of_nonpos_of_nonpos h (Real.sin_nonpos_of_nonpos_of_neg_pi_le h
          (by have := (abs_le.1 hw).1; linarith [Real.pi_gt_three]))
    linarith
  have hc1 : c ≤ 1 := Real.cos_le_one al
  have e : (s * Real.cos (d * s) + c * Real.sin (d * s)) * s +
      (1 + d * c) ^ 2 * c * (c * Real.cos (d * s) - s * Real.sin (d * s)) =
      Real.cos (d * s) * (s ^ 2 + (1 + d * c) ^ 2 * c ^ 2) -
        (s * d * Real.sin (d * s)) * (c ^ 2 * (2 + d * c)) := by ring
  rw [e]
  set X := s * d * Real.sin (d * s)
  set W := Real.cos (d * s)
  have hdc : -1 ≤ d * c := by nlinarith [hd.1]
  have hA : 0 ≤ s ^ 2 + (1 + d * c) ^ 2 * c ^ 2 := by positivity
  have hB : 0 ≤ c ^ 2 * (2 + d * c) := mul_nonneg (sq_nonneg _) (by linarith)
  have h4 : (1 - (d * s) ^ 2 / 2) * (s ^ 2 + (1 + d * c) ^ 2 * c ^ 2) ≤
      W * (s ^ 2 + (1 + d * c) ^ 2 * c ^ 2) := mul_le_mul_of_nonneg_right hcw hA
  have h5 : X * (c ^ 2 * (2 + d * c)) ≤ (d * s) ^ 2 * (c ^ 2 * (2 + d * c)) :=
    mul_le_mul_of_nonneg_right hsw hB
  have hs2 : s ^ 2 = 1 - c ^ 2 := by linarith
  have key : 0 ≤ (1 - (d * s) ^ 2 / 2) * (s ^ 2 + (1 + d * c) ^ 2 * c ^ 2) -
      (d * s) ^ 2 * (c ^ 2 * (2 + d * c)) := by
    have e2 : (d * s) ^ 2 = d ^ 2 * (1 - c ^ 2) := by rw [mul_pow, hs2]
    rw [e2, hs2]
    have hm0 : 0 ≤ d * c := mul_nonneg hd0 hc.le
    have hE0 : 0 ≤ d ^ 2 * (1 - c ^ 2) := mul_nonneg (sq_nonneg _) (by nlinarith)
    have hE1 : d ^ 2 * (1 - c ^ 2) ≤ 1 - c ^ 2 :=
      mul_le_of_le_one_left (by nlinarith) (by nlinarith [hd.2])
    generalize d ^ 2 * (1 - c ^ 2) = E at hE0 hE1 ⊢
    generalize d * c = m at hm0 ⊢
    have hE2 : E ≤ 1 := by nlinarith
    have h7 : 0 ≤ m * c ^ 2 * ((2 + m) * (1 - E / 2) - E) := by
      apply mul_nonneg (by positivity)
      nlinarith [mul_nonneg hm0 (by linarith : (0 : ℝ) ≤ 1 - E / 2)]
    nlinarith [sq_nonneg (c ^ 2 - 3 / 8), mul_nonneg (sq_nonneg c) (sub_nonneg.2 hE1)]
  linarith

/-- The outboard side of the normalised surface as a function of height. -/
def outboard (d z : ℝ) : ℝ := Real.cos (Real.arcsin z + d * z)

/-- Slope of `outboard` in terms of the angle. -/
def slope (d al : ℝ) : ℝ :=
  -(Real.sin (al + d * Real.sin al) * (1 + d * Real.cos al)) / Real.cos al

theorem slope_antitone (d : ℝ) (hd : -1 ≤ d ∧ d ≤ 1) :
    AntitoneOn (slope d) (Set.Ioo (-(Real.pi / 2)) (Real.pi / 2)) := by
  have hder : ∀ al ∈ Set.Ioo (-(Real.pi / 2)) (Real.pi / 2), HasDerivAt (slope d)
      (-(Real.sin (al + d * Real.sin al) * Real.sin al +
      (1 + d * Real.cos al) ^ 2 * Real.cos al * Real.cos (al + d * Real.sin al)) /
        Real.cos al ^ 2) al := by
    intro al ha
    have hc : Real.cos al ≠ 0 := (Real.cos_pos_of_mem_Ioo ha).ne'
    have hu : HasDerivAt (fun al => al + d * Real.sin al) (1 + d * Real.cos al) al :=
      (hasDerivAt_id al).add ((Real.hasDerivAt_sin al).const_mul d)
    have hv : HasDerivAt (fun al => 1 + d * Real.cos al) (d * (-Real.sin al)) al := by
      simpa using ((Real.hasDerivAt_cos al).const_mul d).const_add 1
    have h := ((hu.sin.mul hv).neg.div (Real.hasDerivAt_cos al) hc)
    refine h.congr_deriv ?_
    simp only [Pi.neg_apply, Pi.mul_apply]
    field_simp
    ring
  apply antitoneOn_of_deriv_nonpos (convex_Ioo _ _)
  · exact fun al ha => (hder al ha).continuousAt.continuousWithinAt
  · rw [interior_Ioo]; exact fun al ha => (hder al ha).differentiableAt.differentiableWithinAt
  · rw [interior_Ioo]
    intro al ha
    rw [(hder al ha).deriv]
    exact div_nonpos_of_nonpos_of_nonneg (neg_nonpos.2 (curvature_pos d al hd ha.1 ha.2))
      (sq_nonneg _)

theorem arcsin_mem (z : ℝ) (hz : z ∈ Set.Ioo (-1 : ℝ) 1) :
    Real.arcsin z ∈ Set.Ioo (-(Real.pi / 2)) (Real.pi / 2) :=
  ⟨Real.neg_pi_div_two_lt_arcsin.2 hz.1, Real.arcsin_lt_pi_div_two.2 hz.2⟩

theorem outboard_deriv (d z : ℝ) (hz : z ∈ Set.Ioo (-1 : ℝ) 1) :
    HasDerivAt (outboard d) (slope d (Real.arcsin z)) z := by
  have h := ((Real.hasDerivAt_arcsin (ne_of_gt hz.1) (ne_of_lt hz.2)).add
    ((hasDerivAt_id z).const_mul d)).cos
  refine h.congr_deriv ?_
  have hc : 0 < Real.cos (Real.arcsin z) := Real.cos_pos_of_mem_Ioo (arcsin_mem z hz)
  have e : Real.sin (Real.arcsin z) = z := Real.sin_arcsin hz.1.le hz.2.le
  rw [← Real.cos_arcsin]
  simp only [slope, e, id, Pi.add_apply]
  field_simp

theorem outboard_concave (d : ℝ) (hd : -1 ≤ d ∧ d ≤ 1) :
    ConcaveOn ℝ (Set.Icc (-1 : ℝ) 1) (outboard d) := by
  apply AntitoneOn.concaveOn_of_deriv (convex_Icc _ _)
  · unfold outboard
    fun_prop
  · rw [interior_Icc]
    exact fun z hz => (outboard_deriv d z hz).differentiableAt.differentiableWithinAt
  · rw [interior_Icc]
    intro a ha b hb hab
    rw [(outboard_deriv d a ha).deriv, (outboard_deriv d b hb).deriv]
    exact slope_antitone d hd (arcsin_mem a ha) (arcsin_mem b hb) (Real.monotone_arcsin hab)

/-- The inboard side. -/
def inboard (d z : ℝ) : ℝ := -outboard (-d) z

theorem inboard_convex (d : ℝ) (hd : -1 ≤ d ∧ d ≤ 1) :
    ConvexOn ℝ (Set.Icc (-1 : ℝ) 1) (inboard d) :=
  (outboard_concave (-d) ⟨by linarith [hd.2], by linarith [hd.1]⟩).neg

theorem outboard_sub_inboard (d z : ℝ) :
    outboard d z - inboard d z = 2 * Real.cos (Real.arcsin z) * Real.cos (d * z) := by
  unfold inboard outboard
  rw [Real.cos_add, neg_mul, ← sub_eq_add_neg, Real.cos_sub]; ring

theorem inboard_le (d z : ℝ) (hd : -1 ≤ d ∧ d ≤ 1) (hz : z ∈ Set.Icc (-1 : ℝ) 1) :
    inboard d z ≤ outboard d z := by
  have h1 := outboard_sub_inboard d z
  have h2 : 0 ≤ Real.cos (Real.arcsin z) := Real.cos_arcsin_nonneg z
  have h3 : 0 ≤ Real.cos (d * z) := by
    have : |d * z| ≤ 1 := by
      rw [abs_mul]; exact mul_le_one₀ (abs_le.2 hd) (abs_nonneg _) (abs_le.2 hz)
    exact Real.cos_nonneg_of_neg_pi_div_two_le_of_le
      (by linarith [(abs_le.1 this).1, Real.pi_gt_three])
      (by linarith [(abs_le.1 this).2, Real.pi_gt_three])
  nlinarith [mul_nonneg h2 h3]

theorem inboard_lt (d z : ℝ) (hd : -1 ≤ d ∧ d ≤ 1) (hz : z ∈ Set.Ioo (-1 : ℝ) 1) :
    inboard d z < outboard d z := by
  have h1 := outboard_sub_inboard d z
  have h2 : 0 < Real.cos (Real.arcsin z) := Real.cos_pos_of_mem_Ioo (arcsin_mem z hz)
  have h3 : 0 < Real.cos (d * z) := by
    have : |d * z| ≤ 1 := by
      rw [abs_mul]
      exact mul_le_one₀ (abs_le.2 hd) (abs_nonneg _) (abs_le.2 ⟨hz.1.le, hz.2.le⟩)
    exact Real.cos_pos_of_mem_Ioo
      ⟨by linarith [(abs_le.1 this).1, Real.pi_gt_three],
       by linarith [(abs_le.1 this).2, Real.pi_gt_three]⟩
  nlinarith [mul_pos h2 h3]

/-- The normalised surface. -/
def shapePoint (d al : ℝ) : ℝ × ℝ := (Real.cos (al + d * Real.sin al), Real.sin al)

/-- The normalised plasma cross section. -/
def shapeRegion (d : ℝ) : Set (ℝ × ℝ) :=
  {p | p.2 ∈ Set.Icc (-1 : ℝ) 1 ∧ inboard d p.2 ≤ p.1 ∧ p.1 ≤ outboard d p.2}

theorem shapeRegion_convex (d : ℝ) (hd : -1 ≤ d ∧ d ≤ 1) : Convex ℝ (shapeRegion d) := by
  have h1 := (inboard_convex d hd)
  have h2 := (outboard_concave d hd)
  intro p hp q hq a b ha hb hab
  refine ⟨convex_Icc _ _ hp.1 hq.1 ha hb hab, ?_, ?_⟩
  · refine (h1.2 hp.1 hq.1 ha hb hab).trans ?_
    simp only [smul_eq_mul, Prod.fst_add, Prod.smul_fst]
    have := mul_le_mul_of_nonneg_left hp.2.1 ha
    have := mul_le_mul_of_nonneg_left hq.2.1 hb
    linarith
  · refine le_trans ?_ (h2.2 hp.1 hq.1 ha hb hab)
    simp only [smul_eq_mul, Prod.fst_add, Prod.smul_fst]
    have := mul_le_mul_of_nonneg_left hp.2.2 ha
    have := mul_le_mul_of_nonneg_left hq.2.2 hb
    linarith

/-- On the outboard half. -/
theorem shapePoint_out (d al : ℝ) (h : al ∈ Set.Icc (-(Real.pi / 2)) (Real.pi / 2)) :
    (shapePoint d al).1 = outboard d (Real.sin al) := by
  simp [shapePoint, outboard, Real.arcsin_sin h.1 h.2]

/-- On the inboard half. -/
theorem shapePoint_in (d al : ℝ) (h : al ∈ Set.Icc (Real.pi / 2) (3 * Real.pi / 2)) :
    (shapePoint d al).1 = inboard d (Real.sin al) := by
  have e : Real.sin al = Real.sin (Real.pi - al) := (Real.sin_pi_sub al).symm
  have e2 : Real.arcsin (Real.sin al) = Real.pi - al := by
    rw [e]; exact Real.arcsin_sin (by linarith [h.2]) (by linarith [h.1])
  simp only [shapePoint, inboard, outboard, e2]
  rw [show Real.pi - al + -d * Real.sin al = Real.pi - (al + d * Real.sin al) by ring,
    Real.cos_pi_sub, neg_neg]

theorem shapePoint_period (d al : ℝ) (k : ℤ) :
    shapePoint d (al + k * (2 * Real.pi)) = shapePoint d al := by
  have e1 : Real.sin (al + k * (2 * Real.pi)) = Real.sin al := Real.sin_add_int_mul_two_pi al k
  simp only [shapePoint, e1]
  rw [show al + k * (2 * Real.pi) + d * Real.sin al = al + d * Real.sin al + k * (2 * Real.pi) by ring,
    Real.cos_add_int_mul_two_pi]

/-- Every angle is equivalent to one on the outboard or the inboard half. -/
theorem shapePoint_cases (d al : ℝ) :
    (∃ be ∈ Set.Icc (-(Real.pi / 2)) (Real.pi / 2), shapePoint d al = shapePoint d be) ∨
    (∃ be ∈ Set.Icc (Real.pi / 2) (3 * Real.pi / 2), shapePoint d al = shapePoint d be) := by
  obtain ⟨k, hk, -⟩ := existsUnique_add_zsmul_mem_Ico Real.two_pi_pos al (-(Real.pi / 2))
  simp only [zsmul_eq_mul] at hk
  have e := shapePoint_period d al k
  rcases le_total (al + k * (2 * Real.pi)) (Real.pi / 2) with h | h
  · exact .inl ⟨_, ⟨hk.1, h⟩, e.symm⟩
  · exact .inr ⟨_, ⟨h, by linarith [hk.2]⟩, e.symm⟩

theorem sin_mem (al : ℝ) : Real.sin al ∈ Set.Icc (-1 : ℝ) 1 :=
  ⟨Real.neg_one_le_sin al, Real.sin_le_one al⟩

theorem shapePoint_mem (d al : ℝ) (hd : -1 ≤ d ∧ d ≤ 1) : shapePoint d al ∈ shapeRegion d := by
  rcases shapePoint_cases d al with ⟨be, hbe, e⟩ | ⟨be, hbe, e⟩
  · rw [e]
    exact ⟨sin_mem be, (inboard_le d _ hd (sin_mem be)).trans_eq (shapePoint_out d be hbe).symm,
      (shapePoint_out d be hbe).le⟩
  · rw [e]
    exact ⟨sin_mem be, (shapePoint_in d be hbe).ge,
      (shapePoint_in d be hbe).le.trans (inboard_le d _ hd (sin_mem be))⟩

/-- The surface is not in the interior of the region. -/
theorem shapePoint_not_interior (d al : ℝ) (S : Set (ℝ × ℝ)) (hS : S ⊆ shapeRegion d) :
    shapePoint d al ∉ interior S := by
  intro h
  have h' := interior_mono hS h
  rw [mem_interior_iff_mem_nhds, Metric.mem_nhds_iff] at h'
  obtain ⟨ε, hε, hb⟩ := h'
  have hr : ((shapePoint d al).1 + ε / 2, (shapePoint d al).2) ∈ Metric.ball (shapePoint d al) ε := by
    rw [Metric.mem_ball, Prod.dist_eq]
    simp [Real.dist_eq, abs_of_pos hε, hε]
  have hl : ((shapePoint d al).1 - ε / 2, (shapePoint d al).2) ∈ Metric.ball (shapePoint d al) ε := by
    rw [Metric.mem_ball, Prod.dist_eq]
    simp [Real.dist_eq, abs_of_pos hε, hε]
  have hr := (hb hr).2.2
  have hl := (hb hl).2.1
  rcases shapePoint_cases d al with ⟨be, hbe, e⟩ | ⟨be, hbe, e⟩
  · rw [e] at hr
    have := shapePoint_out d be hbe
    simp only [this] at hr
    have : (shapePoint d be).2 = Real.sin be := rfl
    rw [this] at hr; linarith
  · rw [e] at hl
    have := shapePoint_in d be hbe
    simp only [this] at hl
    have : (shapePoint d be).2 = Real.sin be := rfl
    rw [this] at hl; linarith

theorem shapeRegion_subset_hull (d : ℝ) :
    shapeRegion d ⊆ convexHull ℝ (Set.range (shapePoint d)) := by
  rintro ⟨x, z⟩ ⟨hz, h1, h2⟩
  have e : Real.sin (Real.arcsin z) = z := Real.sin_arcsin hz.1 hz.2
  have hA : (outboard d z, z) ∈ Set.range (shapePoint d) := by
    refine ⟨Real.arcsin z, ?_⟩
    simp [shapePoint, outboard, e]
  have hB : (inboard d z, z) ∈ Set.range (shapePoint d) := by
    refine ⟨Real.pi - Real.arcsin z, ?_⟩
    have e3 : Real.sin (Real.pi - Real.arcsin z) = z := by rw [Real.sin_pi_sub, e]
    simp only [shapePoint, e3, inboard, outboard]
    rw [show Real.pi - Real.arcsin z + d * z = Real.pi - (Real.arcsin z + -d * z) by ring,
      Real.cos_pi_sub]
  have hseg : (x, z) ∈ segment ℝ (inboard d z, z) (outboard d z, z) := by
    rw [← Prod.image_mk_segment_left, segment_eq_Icc (h1.trans h2)]
    exact ⟨x, ⟨h1, h2⟩, rfl⟩
  exact (convex_convexHull ℝ _).segment_subset (subset_convexHull ℝ _ hB)
    (subset_convexHull ℝ _ hA) hseg

theorem shape_hull (d : ℝ) (hd : -1 ≤ d ∧ d ≤ 1) :
    convexHull ℝ (Set.range (shapePoint d)) = shapeRegion d := by
  apply Set.Subset.antisymm
  · apply convexHull_min _ (shapeRegion_convex d hd)
    rintro _ ⟨al, rfl⟩
    exact shapePoint_mem d al hd
  · exact shapeRegion_subset_hull d

end
end TNS
