import Verif.Props.ConvexInside
import Verif.Props.Mcnp
/-
C25 for Fausser plasmas: the sampled region has no gap in any row or column, so the SDEF file's bins
are exactly the sampled cells, whatever the accepted plasma and the cell side.
-/

set_option autoImplicit false

namespace TNS
open Spec
noncomputable section

/-- C66.  What a Fausser last closed flux surface encloses is convex. -/
theorem C66_convex (r0 z0 aspect kappa delta shift sq : ℝ) (l : LCFSInfo ℝ)
    (hl : LCFSInfo.make r0 z0 aspect kappa delta shift sq = .ok l) (n : ℕ) (hn : 5 ≤ n)
    (pts : List (ℝ × ℝ)) (h : fluxSurface .fausser l 1 n = .ok pts) :
    Convex ℝ {p | containsPoint pts p = true} := by
  obtain ⟨hcl, hconv, -⟩ := C66_winds_once _ _ _ _ _ _ _ l hl 1 n (by omega) pts h
  have hlen : 3 ≤ pts.length := by
    rw [fluxSurface_eq _ _ _ _ _ h, List.length_map, angles_length]; omega
  have ha := (fausser_area_pos _ _ _ _ _ _ _ l hl n hn pts h).ne'
  intro p hp q hq a b ha0 hb0 hab
  have := C65_convex_segment pts hcl hlen hconv ha p q hp hq b hb0 (by linarith)
  have e : a • p + b • q = (p.1 + b * (q.1 - p.1), p.2 + b * (q.2 - p.2)) := by
    obtain rfl : a = 1 - b := by linarith
    ext <;> simp <;> ring
  simp only [Set.mem_setOf_eq]
  rw [e]; exact this

/-- C66.  The region enclosed is symmetric about the mid-plane `z = z_0` in this sense: the foot on the
mid-plane of every enclosed point is enclosed. -/
theorem C66_foot (r0 z0 aspect kappa delta shift sq : ℝ) (l : LCFSInfo ℝ)
    (hl : LCFSInfo.make r0 z0 aspect kappa delta shift sq = .ok l) (n : ℕ) (hn : 5 ≤ n)
    (pts : List (ℝ × ℝ)) (h : fluxSurface .fausser l 1 n = .ok pts) (x z : ℝ)
    (hp : containsPoint pts (x, z) = true) : containsPoint pts (x, z0) = true := by
  obtain ⟨hcl, hconv, -⟩ := C66_winds_once _ _ _ _ _ _ _ l hl 1 n (by omega) pts h
  have hlen : 3 ≤ pts.length := by
    rw [fluxSurface_eq _ _ _ _ _ h, List.length_map, angles_length]; omega
  have ha := (fausser_area_pos _ _ _ _ _ _ _ l hl n hn pts h).ne'
  have hax := C66_axis_inside _ _ _ _ _ _ _ l hl n hn pts h
  obtain ⟨⟨-, e2, -⟩, -⟩ := C39_stored _ _ _ _ _ _ _ l hl
  rw [C65_convex pts hcl hlen hconv ha] at hp hax ⊢
  obtain ⟨h1, h2, -⟩ := hax
  simp only [paramOPoint, e2] at h1 h2
  refine ⟨h1, h2, fun i hi => ?_⟩
  have f1 := hp.2.2 i hi
  have f2 := hp.2.2 (pts.length - 2 - i) (by omega)
  obtain ⟨g1, s1, s1'⟩ := C40_symmetric l 1 n pts h i (by omega)
  obtain ⟨g2, s2, s2'⟩ := C40_symmetric l 1 n pts h (i + 1) hi
  have i1 : pts.length - 2 - i + 1 = pts.length - 1 - i := by omega
  have i2 : pts.length - 1 - (i + 1) = pts.length - 2 - i := by omega
  simp only [i1] at f2
  simp only [i2] at s2 s2'
  generalize pts[i] = A at *
  generalize pts[i + 1] = B at *
  generalize pts[pts.length - 1 - i] = A' at *
  generalize pts[pts.length - 2 - i] = B' at *
  rw [e2] at s1' s2'
  unfold orient at *
  simp only at *
  have ea : A'.2 = 2 * z0 - A.2 := by linarith
  have eb : B'.2 = 2 * z0 - B.2 := by linarith
  rw [ea, eb, s1, s2] at f2
  nlinarith

/-- C25.  For every accepted Fausser plasma, every cell side `L > 0` and every non-negative source
strength, the SDEF file is written and the bins it describes are exactly the sampled cells, each with
its own strength. -/
theorem C25_fausser (r0 z0 aspect kappa delta shift sq : ℝ) (l : LCFSInfo ℝ)
    (hl : LCFSInfo.make r0 z0 aspect kappa delta shift sq = .ok l) (n : ℕ) (hn : 5 ≤ n)
    (pts : List (ℝ × ℝ)) (h : fluxSurface .fausser l 1 n = .ok pts) (L : ℝ) (hL : 0 < L)
    (data : List ℝ)
    (hd : data.length = (samplePoints (pts.map Prod.fst) (pts.map Prod.snd) (containsPoint pts)
      (paramOPoint l).x (paramOPoint l).z L).length) (hpos : ∀ s ∈ data, 0 ≤ s) :
    let smp := sampleSpace2d Real.pi (pts.map Prod.fst) (pts.map Prod.snd) (containsPoint pts)
      (paramOPoint l).x (paramOPoint l).z L
    ∃ c, sdefCards smp.x smp.z L data = .ok c ∧ sdefBins c = cellBins smp.x smp.z L data := by
  have hconv := C66_convex _ _ _ _ _ _ _ l hl n hn pts h
  obtain ⟨⟨-, e2, -⟩, -⟩ := C39_stored _ _ _ _ _ _ _ l hl
  have hz : (paramOPoint l).z = z0 := by simp only [paramOPoint, e2]
  refine C25_no_gap _ _ _ (C65_within_box pts) _ _ _ hL ?_ ?_ ?_
    (C66_axis_inside _ _ _ _ _ _ _ l hl n hn pts h) _ _ hd hpos
  · intro x z₁ z₂ z₃ h1 h3 h12 h23
    refine hconv.segment_subset h1 h3 ?_
    rw [segment_eq_image']
    rcases eq_or_lt_of_le (h12.trans h23) with h0 | h0
    · exact ⟨0, by simp, by ext <;> simp; linarith⟩
    · refine ⟨(z₂ - z₁) / (z₃ - z₁), ⟨div_nonneg (by linarith) (by linarith),
        (div_le_one (by linarith)).2 (by linarith)⟩, ?_⟩
      have : z₃ - z₁ ≠ 0 := by linarith
      ext <;> simp
      field_simp
      ring
  · intro x z hp
    rw [hz]
    exact C66_foot _ _ _ _ _ _ _ l hl n hn pts h x z hp
  · intro x₁ x₂ x₃ h1 h3 h12 h23
    refine hconv.segment_subset h1 h3 ?_
    rw [segment_eq_image']
    rcases eq_or_lt_of_le (h12.trans h23) with h0 | h0
    · exact ⟨0, by simp, by ext <;> simp; linarith⟩
    · refine ⟨(x₂ - x₁) / (x₃ - x₁), ⟨div_nonneg (by linarith) (by linarith),
        (div_le_one (by linarith)).2 (by linarith)⟩, ?_⟩
      have : x₃ - x₁ ≠ 0 := by linarith
      ext <;> simp
      field_simp
      ring

/-- A plasma, a 101-point surface and a cell side to which `C25_fausser` applies. -/
example : ∃ l : LCFSInfo ℝ, ∃ pts, LCFSInfo.make 9 0 3 (17 / 10) (1 / 3) (1 / 2) 0 = .ok l ∧
    fluxSurface .fausser l 1 101 = .ok pts := by
  obtain ⟨l, hl⟩ := (C39_accepted (9 : ℝ) 0 3 (17 / 10) (1 / 3) (1 / 2) 0).2
    (by norm_num)
  obtain ⟨s, hs, -⟩ := C42_closed .fausser l 1 101 (by norm_num)
  exact ⟨l, s, hl, hs⟩

end
end TNS
