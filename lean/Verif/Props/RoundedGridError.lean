import Verif.Props.GridError
import Verif.Props.RoundedAgree
import Verif.Spec.RoundedGridError
/-
C113: how far the discretised source is from the continuous one when the grid, the mask and the source are computed in
floating point.
-/

set_option autoImplicit false

namespace TNS
open Spec MeasureTheory Filter Topology
noncomputable section

/-- A point of the line lies on an edge of the crossing test. -/
theorem edge_of_onLine (pts : List (ℝ × ℝ)) {r : ℝ × ℝ} (h : OnLine pts r) :
    ∃ e ∈ pathEdges pts, ∃ t, 0 ≤ t ∧ t ≤ 1 ∧ r = edgePoint e.1 e.2 t := by
  obtain ⟨i, hi, t, t0, t1, e1, e2⟩ := h
  refine ⟨(pts[i], pts[i + 1]), ?_, t, t0, t1, Prod.ext e1 e2⟩
  cases pts with
  | nil => simp at hi
  | cons a l =>
    have hi' : i < l.length := by simpa using hi
    unfold pathEdges
    rw [List.mem_iff_getElem]
    refine ⟨i, by simp; omega, ?_⟩
    rw [List.getElem_zip]
    refine Prod.ext rfl ?_
    simp [List.getElem_append_left hi']

/-- The points near the line have area at most `s² + s·ℓ`. -/
theorem nearLine_area (pts : List (ℝ × ℝ)) (hc : ExactlyClosed pts) (s : ℝ) (hs : 0 ≤ s) :
    volume {q : ℝ × ℝ | NearLine pts (s / 2) q} ≤ ENNReal.ofReal (s ^ 2 + s * taxicab pts) := by
  refine (measure_mono ?_).trans (near_polygon pts hc s hs)
  rintro q ⟨r, hr, h1, h2⟩
  obtain ⟨e, he, t, t0, t1, rfl⟩ := edge_of_onLine pts hr
  exact ⟨e, he, t, t0, t1, h1, h2⟩

theorem nearLine_mono {pts : List (ℝ × ℝ)} {a b : ℝ} {q : ℝ × ℝ} (h : NearLine pts a q) (hab : a ≤ b) : NearLine pts b q := by
  obtain ⟨r, hr, h1, h2⟩ := h
  exact ⟨r, hr, h1.trans hab, h2.trans hab⟩

theorem nearLine_move {pts : List (ℝ × ℝ)} {a b : ℝ} {p q : ℝ × ℝ} (h : NearLine pts a p) (h1 : |p.1 - q.1| ≤ b)
    (h2 : |p.2 - q.2| ≤ b) : NearLine pts (a + b) q := by
  obtain ⟨r, hr, k1, k2⟩ := h
  exact ⟨r, hr, (abs_sub_le _ p.1 _).trans (add_le_add k1 h1), (abs_sub_le _ p.2 _).trans (add_le_add k2 h2)⟩

/-- Two points on different sides have the line between them. -/
theorem separated_near {pts : List (ℝ × ℝ)} (hc : ExactlyClosed pts) (hl : 3 ≤ pts.length) {p q : ℝ × ℝ} {b : ℝ}
    (h : containsPoint pts p ≠ containsPoint pts q) (h1 : |p.1 - q.1| ≤ b) (h2 : |p.2 - q.2| ≤ b) : NearLine pts b q := by
  obtain ⟨e, he, t, t0, t1, k1, k2⟩ := separated pts p q h
  exact ⟨_, onLine_of_edge pts hc hl e he t t0 t1, k1.trans h1, k2.trans h2⟩

/-- The error of a weighted sum over cells that cover the inside of the polygon up to a strip along it. -/
theorem cells_error (pts : List (ℝ × ℝ)) (hc : ExactlyClosed pts) (w : ℝ × ℝ → ℝ) (hw : MidpointExact w)
    (f F : ℝ × ℝ → ℝ) (C ω W L s : ℝ) (hL : 0 < L) (hs : 0 ≤ s) (hW0 : 0 ≤ W) (hC0 : 0 ≤ C) (hω0 : 0 ≤ ω)
    (sp : List (ℝ × ℝ)) (hnd : sp.Nodup) (hdis : ∀ p ∈ sp, ∀ p' ∈ sp, ∀ q, Cell L p q → Cell L p' q → p = p')
    (hout : ∀ p ∈ sp, ∀ q, Cell L p q → containsPoint pts q = false → NearLine pts (s / 2) q)
    (hmiss : ∀ q, containsPoint pts q = true → (∀ p ∈ sp, ¬ Cell L p q) → NearLine pts (s / 2) q)
    (hW : ∀ q, (containsPoint pts q = true ∨ ∃ p ∈ sp, Cell L p q) → |w q| ≤ W)
    (hC : ∀ p, containsPoint pts p = true → |f p| ≤ C) (hF : ∀ p ∈ sp, |F p| ≤ C)
    (hω : ∀ p ∈ sp, ∀ q, containsPoint pts q = true → Cell L p q → |F p - f q| ≤ ω)
    (hcont : ContinuousOn f (interior {p | containsPoint pts p = true})) :
    |(sp.map (fun p => F p * (w p * L ^ 2))).sum - ∫ p in {p | containsPoint pts p = true}, f p * w p| ≤
      W * (ω * volume.real {p | containsPoint pts p = true} + C * (s ^ 2 + s * taxicab pts)) := by
  classical
  set S : Set (ℝ × ℝ) := {p | containsPoint pts p = true} with hS
  set N : Set (ℝ × ℝ) := {q : ℝ × ℝ | NearLine pts (s / 2) q} with hN
  have hNv : volume N ≤ ENNReal.ofReal (s ^ 2 + s * taxicab pts) := nearLine_area pts hc s hs
  have hae := inside_nullMeasurable pts
  have hmeas : NullMeasurableSet S volume :=
    isOpen_interior.measurableSet.nullMeasurableSet.congr hae
  have hfin := inside_finite pts
  -- the discrete side
  obtain ⟨hi, he⟩ := stepFn_mul_integral w hw F L hL sp
  -- the continuous side
  have hfw : AEStronglyMeasurable (fun p => f p * w p) (volume.restrict S) := by
    have h1 : AEStronglyMeasurable (fun p => f p * w p) (volume.restrict (interior S)) :=
      (hcont.mul hw.1.continuousOn).aestronglyMeasurable isOpen_interior.measurableSet
    rwa [Measure.restrict_congr_set hae] at h1
  have hfi : IntegrableOn (fun p => f p * w p) S := by
    haveI : IsFiniteMeasure (volume.restrict S) := ⟨by
      rw [Measure.restrict_apply_univ]; exact hfin.lt_top⟩
    refine Integrable.of_bound hfw (C * W) ?_
    have : ∀ᵐ p ∂(volume.restrict S), p ∈ S := ae_restrict_mem₀ hmeas
    filter_upwards [this] with p hp
    rw [Real.norm_eq_abs, abs_mul]
    exact mul_le_mul (hC p hp) (hW p (Or.inl hp)) (abs_nonneg _) hC0
  have hfi' : Integrable (S.indicator (fun p => f p * w p)) :=
    hfi.integrable_indicator₀ hmeas
  rw [← he, ← integral_indicator₀ hmeas, ← integral_sub hi hfi']
  set M := toMeasurable volume N with hM
  have hMm : MeasurableSet M := measurableSet_toMeasurable _ _
  have hMv : volume M = volume N := measure_toMeasurable N
  have hMf : volume M ≠ ⊤ := by
    rw [hMv]; exact ne_top_of_le_ne_top ENNReal.ofReal_ne_top hNv
  have hg1 : Integrable (S.indicator (fun _ => W * ω)) :=
    IntegrableOn.integrable_indicator₀ (integrableOn_const hfin) hmeas
  have hg2 : Integrable (M.indicator (fun _ => W * C)) := by
    rw [integrable_indicator_iff hMm]; exact integrableOn_const hMf
  have hbound : ∀ q, ‖stepFn F L sp q * w q - S.indicator (fun p => f p * w p) q‖ ≤
      (S.indicator (fun _ => W * ω) + M.indicator (fun _ => W * C)) q := by
    intro q
    have hWω : 0 ≤ W * ω := mul_nonneg hW0 hω0
    have hWC : 0 ≤ W * C := mul_nonneg hW0 hC0
    have hnear : NearLine pts (s / 2) q → q ∈ M := fun h => subset_toMeasurable _ _ h
    rw [Real.norm_eq_abs, Pi.add_apply]
    by_cases h : ∃ p ∈ sp, Cell L p q
    · have hwq := hW q (Or.inr h)
      obtain ⟨p, hp, hcl⟩ := h
      have hval : stepFn F L sp q = F p :=
        stepFn_unique F L _ hnd q p hp hcl fun p' hp' hc' => hdis p' hp' p hp q hc' hcl
      rw [hval]
      by_cases hq : q ∈ S
      · rw [Set.indicator_of_mem hq, Set.indicator_of_mem hq, ← sub_mul, abs_mul, mul_comm]
        have := mul_le_mul hwq (hω p hp q hq hcl) (abs_nonneg _) hW0
        have h0 : 0 ≤ M.indicator (fun _ => W * C) q := Set.indicator_nonneg (fun _ _ => hWC) q
        linarith
      · rw [Set.indicator_of_notMem hq, Set.indicator_of_notMem hq, sub_zero, zero_add,
          Set.indicator_of_mem, abs_mul, mul_comm]
        · exact mul_le_mul hwq (hF p hp) (abs_nonneg _) hW0
        · exact hnear (hout p hp q hcl (by simpa [hS] using hq))
    · have hz : stepFn F L sp q = 0 := stepFn_zero F L _ q (by push Not at h; exact h)
      rw [hz, zero_mul, zero_sub, abs_neg]
      by_cases hq : q ∈ S
      · have hqM : q ∈ M := hnear (hmiss q hq (by push Not at h; exact h))
        rw [Set.indicator_of_mem hq, Set.indicator_of_mem hq, Set.indicator_of_mem hqM, abs_mul, mul_comm]
        have := mul_le_mul (hW q (Or.inl hq)) (hC q hq) (abs_nonneg _) hW0
        linarith
      · rw [Set.indicator_of_notMem hq, Set.indicator_of_notMem hq, abs_zero, zero_add]
        exact Set.indicator_nonneg (fun _ _ => hWC) q
  refine (norm_integral_le_of_norm_le (hg1.add hg2) (Eventually.of_forall hbound)).trans ?_
  have hMr : volume.real M ≤ s ^ 2 + s * taxicab pts := by
    rw [Measure.real, hMv]
    refine (ENNReal.toReal_mono ENNReal.ofReal_ne_top hNv).trans ?_
    rw [ENNReal.toReal_ofReal (by have := taxicab_nonneg pts; positivity)]
  have e := integral_add hg1 hg2
  simp only [Pi.add_apply] at e ⊢
  rw [e, integral_indicator₀ hmeas, integral_indicator hMm, setIntegral_const, setIntegral_const]
  simp only [smul_eq_mul]
  have := mul_le_mul_of_nonneg_left hMr (mul_nonneg hW0 hC0)
  nlinarith

/-- Points that are pairwise three quarters of a side apart in order are so in any order. -/
theorem apart_sep {L : ℝ} {cs : List (ℝ × ℝ)}
    (hap : cs.Pairwise fun p q => p.1 + 3 / 4 * L ≤ q.1 ∨ p.1 = q.1 ∧ p.2 + 3 / 4 * L ≤ q.2) :
    ∀ a ∈ cs, ∀ b ∈ cs, a ≠ b → (3 / 4 * L ≤ |a.1 - b.1| ∨ 3 / 4 * L ≤ |a.2 - b.2|) := by
  intro a ha b hb hab
  obtain ⟨i, hi, rfl⟩ := List.mem_iff_getElem.1 ha
  obtain ⟨j, hj, rfl⟩ := List.mem_iff_getElem.1 hb
  have g := List.pairwise_iff_getElem.1 hap
  rcases lt_trichotomy i j with hij | rfl | hij
  · rcases g i j hi hj hij with h | h
    · left; rw [abs_sub_comm, le_abs]; left; linarith
    · right; rw [abs_sub_comm, le_abs]; left; linarith [h.2]
  · exact absurd rfl hab
  · rcases g j i hj hi hij with h | h
    · left; rw [le_abs]; left; linarith
    · right; rw [le_abs]; left; linarith [h.2]

variable {A : Arith} {u : ℝ} {pts : List (ℝ × ℝ)} {oX oZ L M : ℝ}

/-- The computed cells, moved to the exact lattice. -/
theorem rounded_cells (h : Resolved A u pts oX oZ L M) :
    ∃ lat : ℝ × ℝ → ℝ × ℝ,
      (∀ p ∈ samplePointsR A pts oX oZ L, CloseTo (gridTol u M L) p (lat p) ∧ Lattice oX oZ L (lat p) ∧
        (containsPoint pts (lat p) = true ∨ NearLine pts (2 * gridTol u M L) (lat p))) ∧
      (∀ p ∈ samplePointsR A pts oX oZ L, ∀ p' ∈ samplePointsR A pts oX oZ L, lat p = lat p' → p = p') ∧
      ∀ q, Lattice oX oZ L q → containsPoint pts q = true → (∀ p ∈ samplePointsR A pts oX oZ L, lat p ≠ q) →
        NearLine pts (2 * gridTol u M L) q := by
  have hL := h.side
  have hε := h.resolved
  have hex : ∀ p : ℝ × ℝ, ∃ q : ℝ × ℝ, p ∈ samplePointsR A pts oX oZ L → (CloseTo (gridTol u M L) p q ∧ Lattice oX oZ L q ∧
      (containsPoint pts q = true ∨ NearLine pts (2 * gridTol u M L) q)) := by
    intro p
    by_cases hp : p ∈ samplePointsR A pts oX oZ L
    · obtain ⟨q, h1, h2, h3⟩ := C79_sampled A u pts oX oZ L M h p hp
      exact ⟨q, fun _ => ⟨h2, h1, h3⟩⟩
    · exact ⟨p, fun h => absurd h hp⟩
  choose lat hlat using hex
  have hcell : ∀ p q : ℝ × ℝ, CloseTo (gridTol u M L) p q → Cell L q p := by
    rintro p q ⟨c1, c2⟩
    have c1 := abs_le.1 c1
    have c2 := abs_le.1 c2
    refine ⟨?_, ?_, ?_, ?_⟩ <;> linarith
  refine ⟨lat, hlat, ?_, ?_⟩
  · intro p hp p' hp' e
    by_contra hne
    obtain ⟨a1, a2⟩ := (hlat p hp).1
    obtain ⟨b1, b2⟩ := (hlat p' hp').1
    rw [e] at a1 a2
    rcases apart_sep (sampled_apart A u pts oX oZ L M h) p hp p' hp' hne with k | k
    · have := abs_sub_le p.1 (lat p').1 p'.1
      rw [abs_sub_comm (lat p').1] at this
      linarith
    · have := abs_sub_le p.2 (lat p').2 p'.2
      rw [abs_sub_comm (lat p').2] at this
      linarith
  · intro q hq hin hno
    by_contra hfar
    obtain ⟨p, ⟨hp, hpc⟩, -⟩ := C79_covered A u pts oX oZ L M h q hq hin hfar
    refine hno p hp ?_
    exact lattice_cell_unique oX oZ L hL _ _ p (hlat p hp).2.1 hq (hcell p _ (hlat p hp).1) (hcell p q hpc)

theorem inside_radius (h : Resolved A u pts oX oZ L M) {p : ℝ × ℝ} (hp : containsPoint pts p = true) : |p.1| ≤ M := by
  obtain ⟨⟨a, ha, ha'⟩, ⟨b, hb, hb'⟩, _⟩ := C65_within_box pts p hp
  obtain ⟨a, ha1, rfl⟩ := List.mem_map.1 ha
  obtain ⟨b, hb1, rfl⟩ := List.mem_map.1 hb
  have h1 := abs_le.1 (h.bound a ha1).1
  have h2 := abs_le.1 (h.bound b hb1).1
  rw [abs_le]; constructor <;> linarith [h1.1, h2.2]

theorem onLine_radius (h : Resolved A u pts oX oZ L M) {p : ℝ × ℝ} (hp : OnLine pts p) : |p.1| ≤ M := by
  obtain ⟨i, hi, t, t0, t1, e1, -⟩ := hp
  have h1 := abs_le.1 (h.bound _ (List.getElem_mem (show i < pts.length by omega))).1
  have h2 := abs_le.1 (h.bound _ (List.getElem_mem hi)).1
  have e : p.1 = (1 - t) * pts[i].1 + t * pts[i + 1].1 := by rw [e1]; ring
  rw [e, abs_le]
  constructor <;> nlinarith

/-- The general estimate: `f` is evaluated at the computed centres, the weight at the lattice points. -/
theorem rounded_grid_error (h : Resolved A u pts oX oZ L M) (w : ℝ × ℝ → ℝ) (hw : MidpointExact w) (f : ℝ × ℝ → ℝ) (C ω W : ℝ)
    (hW0 : 0 ≤ W) (hC0 : 0 ≤ C) (hω0 : 0 ≤ ω) (hW : ∀ q : ℝ × ℝ, |q.1| ≤ M + L → |w q| ≤ W)
    (hC : ∀ p, containsPoint pts p = true ∨ p ∈ samplePointsR A pts oX oZ L → |f p| ≤ C)
    (hω : ∀ p ∈ samplePointsR A pts oX oZ L, ∀ q, containsPoint pts q = true → |p.1 - q.1| ≤ 5 / 8 * L →
      |p.2 - q.2| ≤ 5 / 8 * L → |f p - f q| ≤ ω)
    (hcont : ContinuousOn f (interior {p | containsPoint pts p = true})) :
    ∃ lat : ℝ × ℝ → ℝ × ℝ, (∀ p ∈ samplePointsR A pts oX oZ L, CloseTo (gridTol u M L) p (lat p)) ∧
    |((samplePointsR A pts oX oZ L).map (fun p => f p * (w (lat p) * L ^ 2))).sum -
        ∫ p in {p | containsPoint pts p = true}, f p * w p| ≤
      W * (ω * volume.real {p | containsPoint pts p = true} +
        C * (stripWidth u M L ^ 2 + stripWidth u M L * taxicab pts)) := by
  classical
  have hL := h.side
  have hε := h.resolved
  have hM0 : 0 ≤ M := by
    obtain ⟨v, hv⟩ := List.exists_mem_of_ne_nil pts h.closed.1
    exact (abs_nonneg _).trans (h.bound v hv).1
  obtain ⟨t0, -⟩ := gridTol_bounds u M L h.u_nonneg hM0 h.side
  obtain ⟨lat, l1, l2, l3⟩ := rounded_cells h
  refine ⟨lat, fun p hp => (l1 p hp).1, ?_⟩
  set R := samplePointsR A pts oX oZ L with hR
  have hRnd : R.Nodup := by
    refine (C79_order A u pts oX oZ L M h).imp ?_
    rintro p q (h | ⟨_, h⟩) rfl <;> exact lt_irrefl _ h
  have hback : ∀ q : ℝ × ℝ, ∃ p : ℝ × ℝ, q ∈ R.map lat → (p ∈ R ∧ lat p = q) := by
    intro q
    by_cases hq : q ∈ R.map lat
    · obtain ⟨p, hp, e⟩ := List.mem_map.1 hq
      exact ⟨p, fun _ => ⟨hp, e⟩⟩
    · exact ⟨q, fun h => absurd h hq⟩
  choose back hbk using hback
  have hbl : ∀ p ∈ R, back (lat p) = p := by
    intro p hp
    obtain ⟨b1, b2⟩ := hbk (lat p) (List.mem_map_of_mem hp)
    exact l2 _ b1 p hp b2
  have hcell : ∀ p q : ℝ × ℝ, Cell L p q → |p.1 - q.1| ≤ L / 2 ∧ |p.2 - q.2| ≤ L / 2 := by
    rintro p q ⟨h1, h2, h3, h4⟩
    constructor <;> rw [abs_le] <;> constructor <;> linarith
  have hhalf : stripWidth u M L / 2 = 2 * gridTol u M L + L / 2 := by unfold stripWidth; ring
  have key := cells_error pts h.closed w hw f (fun q => f (back q)) C ω W L (stripWidth u M L) hL
    (by unfold stripWidth; positivity) hW0 hC0 hω0 (R.map lat)
    ((List.nodup_map_iff_inj_on hRnd).2 fun x hx y hy e => l2 x hx y hy e)
    (by
      rintro p hp p' hp' q c c'
      obtain ⟨r, hr, rfl⟩ := List.mem_map.1 hp
      obtain ⟨r', hr', rfl⟩ := List.mem_map.1 hp'
      exact lattice_cell_unique oX oZ L hL _ _ q (l1 r hr).2.1 (l1 r' hr').2.1 c c')
    (by
      rintro p hp q c hq
      obtain ⟨r, hr, rfl⟩ := List.mem_map.1 hp
      obtain ⟨c1, c2⟩ := hcell _ q c
      rw [hhalf]
      rcases (l1 r hr).2.2 with k | k
      · exact nearLine_mono (separated_near h.closed h.long (by rw [k, hq]; simp) c1 c2) (by linarith)
      · exact nearLine_move k c1 c2)
    (by
      intro q hq hno
      obtain ⟨p, hp, c, -, -⟩ := C14_cover _ _ _ (C65_within_box pts) oX oZ L hL q
      obtain ⟨c1, c2⟩ := hcell _ q c
      rw [hhalf]
      by_cases hin : containsPoint pts p = true
      · refine nearLine_move (l3 p hp hin ?_) c1 c2
        rintro r hr rfl
        exact hno _ (List.mem_map_of_mem hr) c
      · exact nearLine_mono (separated_near h.closed h.long (by rw [hq]; exact hin) c1 c2) (by linarith))
    (by
      rintro q (hq | ⟨p, hp, c⟩)
      · exact hW q ((inside_radius h hq).trans (by linarith))
      · obtain ⟨r, hr, rfl⟩ := List.mem_map.1 hp
        obtain ⟨c1, -⟩ := hcell _ q c
        have hx : |(lat r).1| ≤ M + 2 * gridTol u M L := by
          rcases (l1 r hr).2.2 with k | ⟨s, hs, k1, -⟩
          · exact (inside_radius h k).trans (by linarith)
          · have b := onLine_radius h hs
            have := abs_sub_abs_le_abs_sub (lat r).1 s.1
            rw [abs_sub_comm] at this
            linarith
        have := abs_sub_abs_le_abs_sub q.1 (lat r).1
        rw [abs_sub_comm] at this
        exact hW q (by linarith))
    (fun p hp => hC p (Or.inl hp))
    (by
      intro p hp
      exact hC _ (Or.inr (hbk p hp).1))
    (by
      intro p hp q hq c
      obtain ⟨b1, b2⟩ := hbk p hp
      obtain ⟨c1, c2⟩ := hcell _ q c
      obtain ⟨d1, d2⟩ := (l1 _ b1).1
      rw [b2] at d1 d2
      refine hω _ b1 q hq ?_ ?_
      · have := abs_sub_le (back p).1 p.1 q.1; linarith
      · have := abs_sub_le (back p).2 p.2 q.2; linarith)
    hcont
  rw [List.map_map] at key
  have e : R.map ((fun p => f (back p) * (w p * L ^ 2)) ∘ lat) = R.map fun p => f p * (w (lat p) * L ^ 2) :=
    List.map_congr_left fun p hp => by simp only [Function.comp_apply, hbl p hp]
  rwa [e] at key

/-- C113, area: the cells computed in floating point cover the area of the LCFS up to a strip along it. -/
theorem C113_area (h : Resolved A u pts oX oZ L M) (σ : ℤ) (hw : WindsOnce pts σ) :
    |((samplePointsR A pts oX oZ L).length : ℝ) * L ^ 2 - getArea2d pts| ≤ stripArea u M L pts := by
  obtain ⟨lat, -, key⟩ := rounded_grid_error h (fun _ => 1) midpoint_one (fun _ => 1) 1 0 1 zero_le_one zero_le_one le_rfl
    (by simp) (by simp) (by simp) continuousOn_const
  rw [← (polygon_measures pts h.closed h.long σ hw).1]
  simpa [stripArea] using key

theorem strip_nonneg (h : Resolved A u pts oX oZ L M) : 0 ≤ gridTol u M L ∧ 0 ≤ M ∧ 0 ≤ stripArea u M L pts := by
  have hM0 : 0 ≤ M := by
    obtain ⟨v, hv⟩ := List.exists_mem_of_ne_nil pts h.closed.1
    exact (abs_nonneg _).trans (h.bound v hv).1
  obtain ⟨t0, -⟩ := gridTol_bounds u M L h.u_nonneg hM0 h.side
  have := taxicab_nonneg pts
  have := h.side
  refine ⟨t0, hM0, ?_⟩
  unfold stripArea stripWidth
  positivity

/-- C113, weighted sums: for any function, the sum over the computed cells of its value at the centre times `2πxL²` differs
from its volume integral by at most `rateError`. -/
theorem C113_sum (h : Resolved A u pts oX oZ L M) (σ : ℤ) (hw : WindsOnce pts σ) (f : ℝ × ℝ → ℝ) (C ω : ℝ) (hC0 : 0 ≤ C)
    (hω0 : 0 ≤ ω) (hf : Gentle pts (samplePointsR A pts oX oZ L) L f C ω) :
    |((samplePointsR A pts oX oZ L).map fun p => f p * (2 * Real.pi * p.1 * L ^ 2)).sum -
        ∫ p in {p | containsPoint pts p = true}, f p * (2 * Real.pi * p.1)| ≤ rateError u M L pts C ω := by
  have hL := h.side
  obtain ⟨t0, hM0, hs0⟩ := strip_nonneg h
  have hpi := Real.pi_pos
  obtain ⟨lat, l1, key⟩ := rounded_grid_error h _ midpoint_circumference f C ω (2 * Real.pi * (M + L)) (by positivity) hC0 hω0
    (by
      intro q hq
      rw [abs_mul, abs_of_pos Real.two_pi_pos]
      exact mul_le_mul_of_nonneg_left hq Real.two_pi_pos.le)
    hf.size hf.change hf.continuous
  rw [(polygon_measures pts h.closed h.long σ hw).1] at key
  have ha := C113_area h σ hw
  set R := samplePointsR A pts oX oZ L with hR
  have move : ∀ l : List (ℝ × ℝ), (∀ p ∈ l, p ∈ R) → |(l.map fun p => f p * (2 * Real.pi * p.1 * L ^ 2)).sum -
      (l.map fun p => f p * (2 * Real.pi * (lat p).1 * L ^ 2)).sum| ≤ l.length * (C * (2 * Real.pi * gridTol u M L * L ^ 2)) := by
    intro l hl
    induction l with
    | nil => simp
    | cons a l ih =>
      simp only [List.map_cons, List.sum_cons, List.length_cons]
      rw [add_sub_add_comm]
      refine (abs_add_le _ _).trans ?_
      have ih := ih fun p hp => hl p (List.mem_cons_of_mem _ hp)
      have e : f a * (2 * Real.pi * a.1 * L ^ 2) - f a * (2 * Real.pi * (lat a).1 * L ^ 2) =
          f a * (2 * Real.pi * (a.1 - (lat a).1) * L ^ 2) := by ring
      have b : |f a * (2 * Real.pi * (a.1 - (lat a).1) * L ^ 2)| ≤ C * (2 * Real.pi * gridTol u M L * L ^ 2) := by
        rw [abs_mul, abs_mul, abs_mul, abs_of_pos Real.two_pi_pos, abs_of_nonneg (sq_nonneg L)]
        have ha := hl a (by simp)
        refine mul_le_mul (hf.size a (Or.inr ha)) ?_ (by positivity) hC0
        exact mul_le_mul_of_nonneg_right (mul_le_mul_of_nonneg_left (l1 a ha).1 Real.two_pi_pos.le) (sq_nonneg L)
      rw [e]
      push_cast
      linarith
  have m := move R fun p hp => hp
  have hn : (R.length : ℝ) * L ^ 2 ≤ getArea2d pts + stripArea u M L pts := by linarith [(abs_le.1 ha).2]
  have m2 : (R.length : ℝ) * (C * (2 * Real.pi * gridTol u M L * L ^ 2)) ≤
      2 * Real.pi * gridTol u M L * (C * (getArea2d pts + stripArea u M L pts)) := by
    have := mul_le_mul_of_nonneg_left hn (show 0 ≤ C * (2 * Real.pi * gridTol u M L) by positivity)
    linarith
  have tri := abs_sub_le (R.map fun p => f p * (2 * Real.pi * p.1 * L ^ 2)).sum
    (R.map fun p => f p * (2 * Real.pi * (lat p).1 * L ^ 2)).sum
    (∫ p in {p | containsPoint pts p = true}, f p * (2 * Real.pi * p.1))
  unfold rateError stripArea at *
  linarith

/-- C113, volume: the sum of the volumes computed in floating point differs from the volume of the LCFS by at most the strip
times the largest circumference, and by rounding. -/
theorem C113_volume (h : Resolved A u pts oX oZ L M) (σ : ℤ) (hw : WindsOnce pts σ) (pi : ℝ)
    (hpi : |pi - Real.pi| ≤ u * Real.pi) :
    |(sampleSpace2dR A pi pts oX oZ L).dVolume.sum - surfaceVolume pts| ≤
      rateError u M L pts 1 0 + 6 * u * (2 * Real.pi * (M + L) * (getArea2d pts + stripArea u M L pts)) := by
  have hL := h.side
  have hε := h.resolved
  obtain ⟨t0, hM0, hs0⟩ := strip_nonneg h
  have hu := h.u_nonneg
  have hpi0 := Real.pi_pos
  have key := C113_sum h σ hw (fun _ => 1) 1 0 zero_le_one le_rfl ⟨by simp, by simp, continuousOn_const⟩
  simp only [one_mul] at key
  rw [(polygon_measures pts h.closed h.long σ hw).2] at key
  have hv := C79_volume A u h.u_nonneg h.u_small h.rel pi hpi pts oX oZ L
  have ha := C113_area h σ hw
  obtain ⟨lat, l1, l2, -⟩ := rounded_cells h
  have hrad : ∀ p ∈ samplePointsR A pts oX oZ L, |p.1| ≤ M + L := by
    intro p hp
    have c := (l1 p hp).1.1
    have := abs_sub_abs_le_abs_sub p.1 (lat p).1
    rcases (l1 p hp).2.2 with k | ⟨s, hs, k1, -⟩
    · have := inside_radius h k
      linarith
    · have b := onLine_radius h hs
      have := abs_sub_abs_le_abs_sub (lat p).1 s.1
      rw [abs_sub_comm s.1] at k1
      linarith
  simp only [sampleSpace2dR] at hv ⊢
  set R := samplePointsR A pts oX oZ L with hR
  rw [List.forall₂_map_left_iff, List.forall₂_map_right_iff, List.forall₂_same] at hv
  have move : ∀ l : List (ℝ × ℝ), (∀ p ∈ l, p ∈ R) → |(l.map fun p => cellVolumeR A pi p.1 L).sum -
      (l.map fun p => 2 * Real.pi * p.1 * L ^ 2).sum| ≤ l.length * (6 * u * (2 * Real.pi * (M + L) * L ^ 2)) := by
    intro l hl
    induction l with
    | nil => simp
    | cons a l ih =>
      simp only [List.map_cons, List.sum_cons, List.length_cons]
      rw [add_sub_add_comm]
      refine (abs_add_le _ _).trans ?_
      have ih := ih fun p hp => hl p (List.mem_cons_of_mem _ hp)
      have ha := hl a (by simp)
      have b : |2 * Real.pi * a.1 * L ^ 2| ≤ 2 * Real.pi * (M + L) * L ^ 2 := by
        rw [abs_mul, abs_mul, abs_of_pos Real.two_pi_pos, abs_of_nonneg (sq_nonneg L)]
        exact mul_le_mul_of_nonneg_right (mul_le_mul_of_nonneg_left (hrad a ha) Real.two_pi_pos.le) (sq_nonneg L)
      have := hv a ha
      have := mul_le_mul_of_nonneg_left b (show 0 ≤ 6 * u by positivity)
      push_cast
      linarith
  have m := move R fun p hp => hp
  have hn : (R.length : ℝ) * L ^ 2 ≤ getArea2d pts + stripArea u M L pts := by linarith [(abs_le.1 ha).2]
  have m2 : (R.length : ℝ) * (6 * u * (2 * Real.pi * (M + L) * L ^ 2)) ≤
      6 * u * (2 * Real.pi * (M + L) * (getArea2d pts + stripArea u M L pts)) := by
    have := mul_le_mul_of_nonneg_left hn (show 0 ≤ 6 * u * (2 * Real.pi * (M + L)) by positivity)
    linarith
  have tri := abs_sub_le (R.map fun p => cellVolumeR A pi p.1 L).sum (R.map fun p => 2 * Real.pi * p.1 * L ^ 2).sum
    (surfaceVolume pts)
  linarith

/-- C113.  With binary64 numbers: the reactions per second of every channel of a source normalised to the power `P` differ
from those of the plasma scaled to that power by at most `P (D r + D_P / Q r) / (power of the plasma)`, where `D` are the
discretisation errors of first order in the cell side and `D_P` that of the power, and by rounding. -/
theorem C113_binary64 {F : MathLib} (hF : AccurateLib F (4 * (2 : ℝ) ^ (-53 : ℤ)))
    {U : SI} {m : Masses ℝ} (hm : RoughData U m) {Q : Reaction → ℝ} (hQ : ∀ r, 0 < Q r)
    {pts : List (ℝ × ℝ)} {oX oZ : ℝ} {psi : ℝ → ℝ → ℝ} {tr : TransportView ℝ}
    {arg : SourceArg} {L : ℝ} {method : ReactivityMethod} {s : Source ℝ} {P : ℝ} (hP : 0 < P)
    (hs : Source.makeR binary64 F (reactivityXsR binary64 F (round53 Real.pi) U m) (round53 Real.pi) Q pts oX oZ psi tr
      arg L (some P) method = .ok s)
    (hok : PlasmaOK tr psi (centres s)) (hN : cells s + s.sourceType.length ≤ 1000000)
    {M : ℝ} (hres : Resolved binary64 ((2 : ℝ) ^ (-53 : ℤ)) pts oX oZ L M) (σ : ℤ) (hw : WindsOnce pts σ)
    (C ω : Reaction → ℝ) (hC0 : ∀ r ∈ s.sourceType, 0 ≤ C r) (hω0 : ∀ r ∈ s.sourceType, 0 ≤ ω r)
    (hf : ∀ r ∈ s.sourceType, Gentle pts (centres s) L (rateAt (referenceReactivity U m method) tr psi r) (C r) (ω r))
    (hI : 0 < insidePower (referenceReactivity U m method) Q tr psi pts s.sourceType) (r : Reaction) (hr : r ∈ s.sourceType) :
    let I := insidePower (referenceReactivity U m method) Q tr psi pts s.sourceType
    let D := fun r => rateError ((2 : ℝ) ^ (-53 : ℤ)) M L pts (C r) (ω r)
    let error := P * (D r + (s.sourceType.map fun r => D r * Q r).sum / Q r) / I + 2 / 10 ^ 9 * (P / Q r)
    |s.numReactions.getD r 0 - P * insideRate (referenceReactivity U m method) tr psi pts r / I| ≤ error ∧
    |s.numNeutrons.getD r 0 - (neutronYield r : ℝ) * (P * insideRate (referenceReactivity U m method) tr psi pts r / I)| ≤
      (neutronYield r : ℝ) * error := by
  intro I D error
  have h53 := u53
  have hp : (0 : ℝ) < (2 : ℝ) ^ (-53 : ℤ) := by positivity
  have hpi : |round53 Real.pi - Real.pi| ≤ (2 : ℝ) ^ (-53 : ℤ) * Real.pi := by
    have := C74_binary64.rel Real.pi
    rwa [abs_of_pos Real.pi_pos] at this
  have hN' : (cells s : ℝ) + s.sourceType.length ≤ 1000000 := by exact_mod_cast hN
  have hNu : ((cells s : ℝ) + s.sourceType.length + 14) * (2 : ℝ) ^ (-53 : ℤ) ≤ 1000014 * (2 : ℝ) ^ (-53 : ℤ) :=
    mul_le_mul_of_nonneg_right (by linarith) hp.le
  have hacc : ∀ r ∈ s.sourceType, _ := fun r (_ : r ∈ s.sourceType) =>
    all_accurate C74_binary64 hF (by linarith) (by linarith) hpi hm method r
  obtain ⟨hT, -⟩ := C93_strengths C74_binary64 hpi hQ (by positivity) hacc hok hP hs (by linarith)
  obtain ⟨k1, k2⟩ := C93_rates C74_binary64 hpi hQ (by positivity) hacc hok hP hs (by linarith) r hr
  have hcell : ∀ r ∈ s.sourceType, 0 ≤ channelRate (referenceReactivity U m method) tr psi L (centres s) r := by
    intro r hr
    refine List.sum_nonneg ?_
    intro a ha
    obtain ⟨p, hp, rfl⟩ := List.mem_map.1 ha
    obtain ⟨p1, p2, p3, p4⟩ := hok _ hp
    have := Real.pi_pos
    exact mul_nonneg (rateDensity_nonneg' _ p2 _ ((hacc r hr).pos _ p3 p4).le r) (by positivity)
  have hcs := (C93_cells hs).2
  have hD : ∀ r ∈ s.sourceType, |channelRate (referenceReactivity U m method) tr psi L (centres s) r -
      insideRate (referenceReactivity U m method) tr psi pts r| ≤ D r := by
    intro r hr
    have hg := hf r hr
    unfold channelRate insideRate
    rw [hcs] at hg ⊢
    exact C113_sum hres σ hw _ (C r) (ω r) (hC0 r hr) (hω0 r hr) hg
  have hDP : ∀ l : List Reaction, (∀ r ∈ l, r ∈ s.sourceType) →
      |(l.map fun r => channelRate (referenceReactivity U m method) tr psi L (centres s) r * Q r).sum - (l.map fun r => insideRate (referenceReactivity U m method) tr psi pts r * Q r).sum| ≤
        (l.map fun r => D r * Q r).sum := by
    intro l hl
    induction l with
    | nil => simp
    | cons a l ih =>
      simp only [List.map_cons, List.sum_cons]
      rw [add_sub_add_comm]
      refine (abs_add_le _ _).trans (add_le_add ?_ (ih fun r hr => hl r (List.mem_cons_of_mem _ hr)))
      rw [← sub_mul, abs_mul, abs_of_pos (hQ a)]
      exact mul_le_mul_of_nonneg_right (hD a (hl a (by simp))) (hQ a).le
  have hDP := hDP s.sourceType fun r hr => hr
  have hDr := hD r hr
  have hq := hQ r
  have hle : channelRate (referenceReactivity U m method) tr psi L (centres s) r * Q r ≤ cellsPower (referenceReactivity U m method) Q tr psi L (centres s) s.sourceType := by
    have h1 : ∀ a ∈ s.sourceType.map fun r => channelRate (referenceReactivity U m method) tr psi L (centres s) r * Q r, 0 ≤ a := by
      intro a ha
      obtain ⟨r, hr, rfl⟩ := List.mem_map.1 ha
      exact mul_nonneg (hcell r hr) (hQ r).le
    exact List.single_le_sum h1 _ (List.mem_map.2 ⟨r, hr, rfl⟩)
  have hch := hcell r hr
  change |cellsPower (referenceReactivity U m method) Q tr psi L (centres s) s.sourceType - I| ≤ _ at hDP
  set T := cellsPower (referenceReactivity U m method) Q tr psi L (centres s) s.sourceType with hTd
  set c := channelRate (referenceReactivity U m method) tr psi L (centres s) r with hc
  set i := insideRate (referenceReactivity U m method) tr psi pts r with hi
  set DP := (s.sourceType.map fun r => D r * Q r).sum with hDPd
  have hI' : 0 < I := hI
  have hcT : c / T ≤ 1 / Q r := by
    rw [div_le_div_iff₀ hT hq]; linarith
  have hcT0 : 0 ≤ c / T := div_nonneg hch hT.le
  have main : |P * c / T - P * i / I| ≤ P * (D r + DP / Q r) / I := by
    have e : P * c / T - P * i / I = P * ((c - i) + c / T * (I - T)) / I := by
      field_simp
      ring
    rw [e, abs_div, abs_mul, abs_of_pos hP, abs_of_pos hI']
    refine div_le_div_of_nonneg_right (mul_le_mul_of_nonneg_left ?_ hP.le) hI'.le
    refine (abs_add_le _ _).trans (add_le_add hDr ?_)
    rw [abs_mul, abs_of_nonneg hcT0, abs_sub_comm]
    calc c / T * |T - I| ≤ 1 / Q r * DP := mul_le_mul hcT hDP (abs_nonneg _) (by positivity)
      _ = DP / Q r := by ring
  have hrate : P * c / T ≤ P / Q r := by
    have := mul_le_mul_of_nonneg_left hcT hP.le
    calc P * c / T = P * (c / T) := by ring
      _ ≤ P * (1 / Q r) := this
      _ = P / Q r := by ring
  have hrate0 : 0 ≤ P * c / T := by positivity
  have hε : (2.3 * (165000 * (4 * (2 : ℝ) ^ (-53 : ℤ))) + 8 * ((cells s : ℝ) + s.sourceType.length + 14) * (2 : ℝ) ^ (-53 : ℤ)) *
      (P * c / T) ≤ 2 / 10 ^ 9 * (P / Q r) :=
    mul_le_mul (by linarith) hrate hrate0 (by norm_num)
  have hy : (0 : ℝ) ≤ neutronYield r := Nat.cast_nonneg _
  constructor
  · have := abs_sub_le (s.numReactions.getD r 0) (P * c / T) (P * i / I)
    show _ ≤ P * (D r + DP / Q r) / I + 2 / 10 ^ 9 * (P / Q r)
    linarith
  · have t := abs_sub_le (s.numNeutrons.getD r 0) ((neutronYield r : ℝ) * (P * c / T)) ((neutronYield r : ℝ) * (P * i / I))
    rw [← mul_sub, abs_mul, abs_of_nonneg hy] at t
    have m1 := mul_le_mul_of_nonneg_left main hy
    have m2 := mul_le_mul_of_nonneg_left hε hy
    show _ ≤ (neutronYield r : ℝ) * (P * (D r + DP / Q r) / I + 2 / 10 ^ 9 * (P / Q r))
    rw [mul_add]
    linarith

/-- C113: the error is of first order in the cell side, when a rate changes by at most `Λ` per metre. -/
theorem C113_first_order (h : Resolved A u pts oX oZ L M) (C Λ : ℝ) (hC0 : 0 ≤ C) (hΛ : 0 ≤ Λ) :
    rateError u M L pts C (Λ * L) ≤ 2 * Real.pi * L * ((M + L) * (Λ * getArea2d pts + C * (9 / 4 * L + 3 / 2 * taxicab pts)) +
      C / 8 * (getArea2d pts + 9 / 4 * L ^ 2 + 3 / 2 * L * taxicab pts)) := by
  have hL := h.side
  have hε := h.resolved
  obtain ⟨t0, hM0, hs0⟩ := strip_nonneg h
  have ht := taxicab_nonneg pts
  have ha : 0 ≤ getArea2d pts := by unfold getArea2d; positivity
  have hw : stripWidth u M L ≤ 3 / 2 * L := by unfold stripWidth; linarith
  have hw0 : 0 ≤ stripWidth u M L := by unfold stripWidth; positivity
  have hsa : stripArea u M L pts ≤ L * (9 / 4 * L + 3 / 2 * taxicab pts) := by
    unfold stripArea
    have h1 : stripWidth u M L ^ 2 ≤ (3 / 2 * L) ^ 2 := pow_le_pow_left₀ hw0 hw 2
    have h2 := mul_le_mul_of_nonneg_right hw ht
    nlinarith
  have hpi := Real.pi_pos
  unfold rateError
  have p1 : 2 * Real.pi * (M + L) * (Λ * L * getArea2d pts + C * stripArea u M L pts) ≤
      2 * Real.pi * (M + L) * (L * (Λ * getArea2d pts + C * (9 / 4 * L + 3 / 2 * taxicab pts))) := by
    refine mul_le_mul_of_nonneg_left ?_ (by positivity)
    have := mul_le_mul_of_nonneg_left hsa hC0
    linarith
  have p2 : 2 * Real.pi * gridTol u M L * (C * (getArea2d pts + stripArea u M L pts)) ≤
      2 * Real.pi * (L / 8) * (C * (getArea2d pts + L * (9 / 4 * L + 3 / 2 * taxicab pts))) := by
    refine mul_le_mul (mul_le_mul_of_nonneg_left hε (by positivity)) ?_ (by positivity) (by positivity)
    exact mul_le_mul_of_nonneg_left (by linarith) hC0
  refine (add_le_add p1 p2).trans (le_of_eq ?_)
  ring

/-! ### The hypotheses are met: 500 MW from the rectangular plasma with flat profiles -/

namespace Ex

theorem rect_winds : WindsOnce rectangle 1 := by
  refine convex_windsOnce (1, -1) [(3, -1), (3, 1), (1, 1)] ?_
  intro i j k a b c hij hjk ha hb hc
  have hk : k < 4 := by
    obtain ⟨h, -⟩ := List.getElem?_eq_some_iff.1 hc
    simpa using h
  interval_cases k <;> interval_cases j <;> interval_cases i <;>
    simp at ha hb hc <;> subst ha <;> subst hb <;> subst hc <;> norm_num [orient]

theorem rect_area : getArea2d rectangle = 4 := by
  simp [getArea2d, rectangle, roll]; norm_num

/-- The computed 30 cm cells cover 4 square metres up to 2.5. -/
example : |((samplePointsR binary64 rectangle 2 0 (3 / 10)).length : ℝ) * (3 / 10) ^ 2 - 4| ≤ 2.5 := by
  have h := C113_area rect_resolved 1 rect_winds
  rw [rect_area] at h
  refine h.trans ?_
  unfold stripArea stripWidth
  have e : taxicab rectangle = 8 := by simp only [rectangle, taxicab]; norm_num
  have := rect_tol
  have h0 := (strip_nonneg rect_resolved).1
  rw [e]
  nlinarith

theorem flat_rate (sv : Reaction → ℝ → ℝ) (psi : ℝ → ℝ → ℝ) (r : Reaction) (p : ℝ × ℝ) :
    rateAt sv flat psi r p = rateAt sv flat psi r (0, 0) := rfl

theorem flat_gentle (sv : Reaction → ℝ → ℝ) (psi : ℝ → ℝ → ℝ) (cs : List (ℝ × ℝ)) (L : ℝ) (r : Reaction) :
    Gentle rectangle cs L (rateAt sv flat psi r) |rateAt sv flat psi r (0, 0)| 0 := by
  refine ⟨fun p _ => by rw [flat_rate], fun p _ q _ _ _ => ?_, ?_⟩
  · rw [flat_rate sv psi r p, flat_rate sv psi r q]; simp
  · rw [funext (flat_rate sv psi r)]; exact continuousOn_const

example (psi : ℝ → ℝ → ℝ) : ∃ (s : Source ℝ) (C : Reaction → ℝ) (I i : ℝ), .DT ∈ s.sourceType ∧ 0 < i ∧ 2.8e-12 * i ≤ I ∧
    |s.numReactions.getD .DT 0 - 5e8 * i / I| ≤
      5e8 * (rateError ((2 : ℝ) ^ (-53 : ℤ)) 3 (3 / 10) rectangle (C .DT) 0 +
        (s.sourceType.map fun r => rateError ((2 : ℝ) ^ (-53 : ℤ)) 3 (3 / 10) rectangle (C r) 0 * 2.8e-12).sum / 2.8e-12) / I +
      2 / 10 ^ 9 * (5e8 / 2.8e-12) := by
  obtain ⟨s, hs, -, hdt, hok, hN, hne⟩ := Ex.default_source psi
  generalize hU : (⟨1.602176634e-16, 1.66053906660e-27⟩ : SI) = U at hs
  generalize hM : (⟨2.01410177812, 3.0160492779, 4.002602, 3.0160293201, 1.00866491588,
        1.007276466621, 5.48579909065e-4⟩ : Masses ℝ) = m at hs
  have hm : RoughData U m := by rw [← hU, ← hM]; exact rough_measured
  have hQ : ∀ r : Reaction, (0 : ℝ) < (fun _ => 2.8e-12) r := fun _ => by norm_num
  have h53 := u53
  have hp : (0 : ℝ) < (2 : ℝ) ^ (-53 : ℤ) := by positivity
  have hpi : |round53 Real.pi - Real.pi| ≤ (2 : ℝ) ^ (-53 : ℤ) * Real.pi := by
    have := C74_binary64.rel Real.pi
    rwa [abs_of_pos Real.pi_pos] at this
  have hacc := all_accurate C74_binary64 accurate_libs.2 (by linarith) (by linarith) hpi hm .AUTO
  have hsp : ∀ sp, 0 ≤ density flat (psi 0 0) sp := by
    intro sp
    cases sp <;> simp [density, valueAt, flat] <;> norm_num
  have hT : valueAt flat.temperature (psi 0 0) = 10 := by simp [valueAt, flat]
  have h0 : ∀ r, 0 ≤ rateAt (referenceReactivity U m .AUTO) flat psi r (0, 0) := by
    intro r
    unfold rateAt
    rw [hT]
    exact rateDensity_nonneg' _ hsp _ ((hacc r).pos 10 (by norm_num) (by norm_num)).le r
  have h1 : 0 < rateAt (referenceReactivity U m .AUTO) flat psi .DT (0, 0) := by
    have h2 := (hacc .DT).pos 10 (by norm_num) (by norm_num)
    unfold rateAt rateDensity
    rw [hT]
    generalize referenceReactivity U m .AUTO .DT = ref at h2
    refine div_pos (mul_pos ?_ h2) ?_
    · simp [reactants, density, valueAt, flat, Reaction.DT]; norm_num
    · split_ifs <;> norm_num
  have hI : ∀ r, insideRate (referenceReactivity U m .AUTO) flat psi rectangle r =
      rateAt (referenceReactivity U m .AUTO) flat psi r (0, 0) * surfaceVolume rectangle := by
    intro r
    rw [← (polygon_measures rectangle rect_resolved.closed rect_resolved.long 1 rect_winds).2]
    unfold insideRate
    rw [funext (flat_rate _ psi r)]
    exact MeasureTheory.integral_const_mul _ _
  have hV : 0 < surfaceVolume rectangle := by
    have hpi := Real.pi_pos
    have c1 : contour (fun x _ => x) rectangle = 4 := by
      simp only [rectangle, contour, seg_x]; norm_num
    have c2 : contour (fun x _ => x ^ 2) rectangle = 16 := by
      simp only [rectangle, contour, seg_xx]; norm_num
    have e := (C45_centroid _ rect_resolved.closed (by rw [rect_area]; norm_num)).1
    rw [c1, c2] at e
    unfold surfaceVolume
    rw [rect_area, e]
    positivity
  have hdtI := hI .DT
  have hnn : ∀ a ∈ s.sourceType.map fun r => insideRate (referenceReactivity U m .AUTO) flat psi rectangle r *
      (fun _ => (2.8e-12 : ℝ)) r, 0 ≤ a := by
    intro a ha
    obtain ⟨r, -, rfl⟩ := List.mem_map.1 ha
    rw [hI]
    exact mul_nonneg (mul_nonneg (h0 r) hV.le) (by norm_num)
  have hle := List.single_le_sum hnn _ (List.mem_map.2 ⟨.DT, hdt, rfl⟩)
  have hpos : 0 < insideRate (referenceReactivity U m .AUTO) flat psi rectangle .DT := by rw [hdtI]; exact mul_pos h1 hV
  have hle' : 2.8e-12 * insideRate (referenceReactivity U m .AUTO) flat psi rectangle .DT ≤
      insidePower (referenceReactivity U m .AUTO) (fun _ => 2.8e-12) flat psi rectangle s.sourceType := by
    rw [mul_comm]; exact hle
  exact ⟨s, fun r => |rateAt (referenceReactivity U m .AUTO) flat psi r (0, 0)|, _, _, hdt, hpos, hle',
    (C113_binary64 accurate_libs.2 hm hQ (by norm_num) hs hok hN rect_resolved 1 rect_winds
      (fun r => |rateAt (referenceReactivity U m .AUTO) flat psi r (0, 0)|) (fun _ => 0) (fun r _ => abs_nonneg _)
      (fun _ _ => le_rfl) (fun r _ => flat_gentle _ psi _ _ r)
      (lt_of_lt_of_le (mul_pos (by norm_num) hpos) hle') .DT hdt).1⟩

end Ex

end
end TNS
