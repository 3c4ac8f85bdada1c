import Verif.Lemmas.FausserPolygon
import Verif.Props.ConvexPolygon
import Verif.Props.Green
/-
C66: the last closed flux surface of a Fausser plasma is a convex polygon traversed once, it contains
the magnetic axis, and so the neutron source built from it is never empty and its cells fill it.
-/

set_option autoImplicit false

namespace TNS
open Spec Filter Topology
noncomputable section

theorem angles_eq (m : ℕ) (hm : 1 ≤ m) : angles (m + 1) =
    (List.range (m + 1)).map (fun i : ℕ => 2 * Real.pi * ((i : ℝ) / (m : ℝ))) := by
  unfold angles
  rw [if_neg (by omega)]
  push_cast
  simp

theorem winding_range (p : ℝ × ℝ) (g : ℕ → ℝ × ℝ) (m : ℕ) :
    winding p ((List.range (m + 1)).map g) =
      ∑ i ∈ Finset.range m, signedCross p (g i) (g (i + 1)) := by
  have app : ∀ (l : List (ℝ × ℝ)) (a b : ℝ × ℝ),
      winding p (l ++ [a] ++ [b]) = winding p (l ++ [a]) + signedCross p a b := by
    intro l
    induction l with
    | nil => intro a b; simp [winding]
    | cons x l ih =>
      intro a b
      have := ih a b
      cases l with
      | nil => simp [winding] at this ⊢
      | cons y l =>
        simp only [List.cons_append, winding] at this ⊢
        rw [this]; ring
  induction m with
  | zero => simp [winding]
  | succ m ih =>
    rw [Finset.sum_range_succ, ← ih, List.range_succ (n := m + 1), List.range_succ (n := m)]
    simp only [List.map_append, List.map_cons, List.map_nil]
    exact app _ _ _

theorem fausser_closes (l : LCFSInfo ℝ) (psi : ℝ) : fausserPoint l psi (2 * Real.pi) =
    fausserPoint l psi 0 := by
  simp only [fausserPoint, Real.sin_two_pi, Real.sin_zero, mul_zero, add_zero, Real.cos_two_pi,
    Real.cos_zero]

/-- Vertices of a Fausser surface. -/
def fv (l : LCFSInfo ℝ) (psi : ℝ) (m i : ℕ) : ℝ × ℝ :=
  fausserPoint l psi (2 * Real.pi * ((i : ℝ) / (m : ℝ)))

theorem fausser_list (l : LCFSInfo ℝ) (psi : ℝ) (m : ℕ) (hm : 1 ≤ m) (pts : List (ℝ × ℝ))
    (h : fluxSurface .fausser l psi (m + 1) = .ok pts) :
    pts = (List.range (m + 1)).map (fv l psi m) := by
  rw [fluxSurface_eq _ _ _ _ _ h, angles_eq m hm, List.map_map]
  rfl

theorem fv_last (l : LCFSInfo ℝ) (psi : ℝ) (m : ℕ) (hm : 1 ≤ m) : fv l psi m m = fv l psi m 0 := by
  have : (m : ℝ) ≠ 0 := by positivity
  unfold fv
  rw [div_self this, mul_one, fausser_closes]
  simp

theorem fausser_list_closed (l : LCFSInfo ℝ) (psi : ℝ) (m : ℕ) (hm : 1 ≤ m) :
    (List.range (m + 1)).map (fv l psi m) =
      fv l psi m 0 :: (List.range (m - 1)).map (fun i => fv l psi m (i + 1)) ++ [fv l psi m 0] := by
  obtain ⟨k, rfl⟩ : ∃ k, m = k + 1 := ⟨m - 1, by omega⟩
  rw [List.range_succ, List.map_append, List.map_cons, List.map_nil, fv_last l psi (k + 1) (by omega),
    List.range_succ_eq_map]
  simp [List.map_map, Function.comp_def]

theorem convex_prefix (a b : List (ℝ × ℝ)) (h : ConvexPolygon (a ++ b)) : ConvexPolygon a := by
  intro i j k x y z hij hjk hx hy hz
  have get : ∀ (n : ℕ) (w : ℝ × ℝ), a[n]? = some w → (a ++ b)[n]? = some w := by
    intro n w hw
    obtain ⟨hl, hw⟩ := List.getElem?_eq_some_iff.1 hw
    rw [List.getElem?_append_left hl, List.getElem?_eq_getElem hl, hw]
  exact h i j k x y z hij hjk (get _ _ hx) (get _ _ hy) (get _ _ hz)

/-- C66.  Every flux surface of an accepted Fausser plasma, with any number of points from 3 up, is a
closed convex polygon traversed once, anticlockwise. -/
theorem C66_winds_once (r0 z0 aspect kappa delta shift sq : ℝ) (l : LCFSInfo ℝ)
    (hl : LCFSInfo.make r0 z0 aspect kappa delta shift sq = .ok l) (psi : ℝ) (n : ℕ)
    (hn : 3 ≤ n) (pts : List (ℝ × ℝ)) (h : fluxSurface .fausser l psi n = .ok pts) :
    ExactlyClosed pts ∧ ConvexPolygon pts ∧ WindsOnce pts 1 := by
  obtain ⟨ha, hk, hd⟩ := made_pos _ _ _ _ _ _ _ l hl
  have hcp : ConvexPolygon pts := by
    rw [fluxSurface_eq _ _ _ _ _ h]
    exact fausser_polygon_convex l hd (by linarith) psi n
  obtain ⟨m, rfl⟩ : ∃ m, n = m + 1 := ⟨n - 1, by omega⟩
  have e := fausser_list l psi m (by omega) pts h
  rw [fausser_list_closed l psi m (by omega)] at e
  refine ⟨?_, hcp, ?_⟩
  · rw [e]
    exact ⟨by simp, by rw [List.getLast?_concat]; rfl⟩
  · rw [e] at hcp ⊢
    exact convex_windsOnce _ _ (convex_prefix _ _ hcp)

/-- The angle of vertex `i` decides whether it is above or below the axis. -/
theorem sin_vertex_nonneg (m i : ℕ) (hm : 1 ≤ m) (h : 2 * i ≤ m) :
    0 ≤ Real.sin (2 * Real.pi * ((i : ℝ) / (m : ℝ))) := by
  have hm0 : (0 : ℝ) < m := by positivity
  apply Real.sin_nonneg_of_nonneg_of_le_pi (by positivity)
  have : 2 * (i : ℝ) ≤ m := by exact_mod_cast h
  have : 2 * ((i : ℝ) / m) ≤ 1 := by rw [← mul_div_assoc, div_le_one hm0]; exact this
  nlinarith [Real.pi_pos]

theorem sin_vertex_neg (m i : ℕ) (hm : 1 ≤ m) (h : m < 2 * i) (h' : i < m) :
    Real.sin (2 * Real.pi * ((i : ℝ) / (m : ℝ))) < 0 := by
  have hm0 : (0 : ℝ) < m := by positivity
  have h1 : (m : ℝ) < 2 * i := by exact_mod_cast h
  have h2 : (i : ℝ) < m := by exact_mod_cast h'
  have a1 : 1 < 2 * ((i : ℝ) / m) := by rw [← mul_div_assoc, one_lt_div hm0]; exact h1
  have a2 : (i : ℝ) / m < 1 := by rw [div_lt_one hm0]; exact h2
  rw [← Real.sin_sub_two_pi]
  apply Real.sin_neg_of_neg_of_neg_pi_lt <;> nlinarith [Real.pi_pos]

/-- The magnetic axis lies inside the polygon: the winding number about it is 1. -/
theorem fausser_axis_winding (l : LCFSInfo ℝ) (ha : 0 < l.r0 / l.aspect) (hk : 1 ≤ l.kappa)
    (hd : -1 ≤ l.delta ∧ l.delta ≤ 1) (hs0 : 0 ≤ l.shift) (hs : l.shift < l.r0 / l.aspect)
    (m : ℕ) (hm : 4 ≤ m) :
    winding (l.r0 + l.shift, l.z0) ((List.range (m + 1)).map (fv l 1 m)) = 1 := by
  have hm0 : (0 : ℝ) < m := by positivity
  have hp := Real.pi_pos
  have hak : 0 < l.r0 / l.aspect * l.kappa := mul_pos ha (by linarith)
  have fx : ∀ i, (fv l 1 m i).1 = l.r0 + l.r0 / l.aspect *
      Real.cos (2 * Real.pi * ((i : ℝ) / (m : ℝ)) + l.delta * Real.sin (2 * Real.pi * ((i : ℝ) / (m : ℝ)))) := by
    intro i; simp [fv, fausserPoint]
  have fz : ∀ i, (fv l 1 m i).2 = l.z0 + l.r0 / l.aspect * l.kappa *
      Real.sin (2 * Real.pi * ((i : ℝ) / (m : ℝ))) := by
    intro i; simp [fv, fausserPoint]
  have up : ∀ i, 2 * i ≤ m → l.z0 ≤ (fv l 1 m i).2 := by
    intro i hi
    rw [fz]
    have := mul_nonneg hak.le (sin_vertex_nonneg m i (by omega) hi)
    linarith
  have dn : ∀ i, m < 2 * i → i < m → (fv l 1 m i).2 < l.z0 := by
    intro i hi hi'
    rw [fz]
    have := mul_neg_of_pos_of_neg hak (sin_vertex_neg m i (by omega) hi hi')
    linarith
  have last : fv l 1 m m = (l.r0 + l.r0 / l.aspect, l.z0) := by
    rw [fv_last l 1 m (by omega)]
    refine Prod.ext ?_ ?_
    · rw [fx]; simp
    · rw [fz]; simp
  rw [winding_range, Finset.sum_eq_single_of_mem (m - 1) (by simp; omega)]
  · have hup : UpCross (l.r0 + l.shift, l.z0) (fv l 1 m (m - 1)) (fv l 1 m (m - 1 + 1)) := by
      rw [show m - 1 + 1 = m by omega, last]
      refine ⟨dn _ (by omega) (by omega), le_rfl, ?_⟩
      rw [abscissa_le_iff]
      · simp only [sub_self, zero_mul]
        have := dn (m - 1) (by omega) (by omega)
        apply mul_nonpos_of_nonneg_of_nonpos <;> linarith
      · exact dn (m - 1) (by omega) (by omega)
    have hdn : ¬ DownCross (l.r0 + l.shift, l.z0) (fv l 1 m (m - 1)) (fv l 1 m (m - 1 + 1)) :=
      fun h => absurd (hup.1.trans_le h.2.1) (lt_irrefl _)
    simp [signedCross, hup, hdn]
  · intro i hi hne
    have hi : i < m - 1 := by simp at hi; omega
    have nup : ¬ UpCross (l.r0 + l.shift, l.z0) (fv l 1 m i) (fv l 1 m (i + 1)) := by
      rintro ⟨h1, h2, -⟩
      by_cases hh : 2 * i ≤ m
      · exact absurd (up i hh) (not_le.2 h1)
      · exact absurd (dn (i + 1) (by omega) (by omega)) (not_lt.2 h2)
    have ndn : ¬ DownCross (l.r0 + l.shift, l.z0) (fv l 1 m i) (fv l 1 m (i + 1)) := by
      rintro ⟨h1, h2, h3⟩
      have hlow : 2 * i ≤ m := by
        by_contra hh
        exact absurd (dn i (by omega) (by omega)) (not_lt.2 h2)
      have hhigh : m < 2 * (i + 1) := by
        by_contra hh
        exact absurd (up (i + 1) (by omega)) (not_le.2 h1)
      have hab := h1.trans_le h2
      rw [lt_abscissa_iff _ _ _ hab, not_le] at h3
      simp only at h3
      rcases Nat.eq_or_lt_of_le hlow with he | hlt
      · -- a vertex at angle π
        have eang : 2 * Real.pi * ((i : ℝ) / (m : ℝ)) = Real.pi := by
          have : (m : ℝ) = 2 * i := by exact_mod_cast he.symm
          have hi0 : (i : ℝ) ≠ 0 := by
            intro h0; rw [h0] at this; linarith
          rw [this]; field_simp
        have ex : (fv l 1 m i).1 = l.r0 - l.r0 / l.aspect := by
          rw [fx, eang]; simp; ring
        have ez : (fv l 1 m i).2 = l.z0 := by rw [fz, eang]; simp
        rw [ex, ez] at h3
        rw [ez] at hab
        nlinarith
      · -- two symmetric vertices on both sides of π
        have hm2 : m = 2 * i + 1 := by omega
        have hmr : (m : ℝ) = 2 * i + 1 := by exact_mod_cast hm2
        have hi2 : (2 : ℝ) ≤ i := by exact_mod_cast (by omega : 2 ≤ i)
        set t := Real.pi / m with ht
        have ht0 : 0 < t := div_pos hp hm0
        have ht1 : t ≤ Real.pi / 5 := by
          rw [ht]; apply div_le_div_of_nonneg_left hp.le (by norm_num); linarith
        have e1 : 2 * Real.pi * ((i : ℝ) / (m : ℝ)) = Real.pi - t := by
          rw [ht, hmr]; field_simp; ring
        have e2 : 2 * Real.pi * (((i + 1 : ℕ) : ℝ) / (m : ℝ)) = Real.pi + t := by
          rw [ht, hmr]; push_cast; field_simp; ring
        have ex1 : (fv l 1 m i).1 = l.r0 - l.r0 / l.aspect * Real.cos (t - l.delta * Real.sin t) := by
          rw [fx, e1, Real.sin_pi_sub, show Real.pi - t + l.delta * Real.sin t =
            Real.pi - (t - l.delta * Real.sin t) by ring, Real.cos_pi_sub]; ring
        have ex2 : (fv l 1 m (i + 1)).1 =
            l.r0 - l.r0 / l.aspect * Real.cos (t - l.delta * Real.sin t) := by
          rw [fx, e2, add_comm Real.pi t, Real.sin_add_pi, show t + Real.pi + l.delta * -Real.sin t =
            (t - l.delta * Real.sin t) + Real.pi by ring, Real.cos_add_pi]; ring
        have hst : Real.sin t ≤ t := Real.sin_le ht0.le
        have hst0 : 0 ≤ Real.sin t := Real.sin_nonneg_of_nonneg_of_le_pi ht0.le (by linarith)
        have hds : |l.delta * Real.sin t| ≤ t := by
          rw [abs_mul, abs_of_nonneg hst0]
          have := abs_le.2 hd
          nlinarith [abs_nonneg l.delta]
        have hcos : 0 ≤ Real.cos (t - l.delta * Real.sin t) := by
          obtain ⟨q1, q2⟩ := abs_le.1 hds
          apply Real.cos_nonneg_of_neg_pi_div_two_le_of_le <;> linarith
        rw [ex1, ex2, sub_self, mul_zero] at h3
        have hc2 := mul_nonneg ha.le hcos
        nlinarith
    simp [signedCross, nup, ndn]

/-- C66.  With at least five points the last closed flux surface contains the magnetic axis. -/
theorem C66_axis_inside (r0 z0 aspect kappa delta shift sq : ℝ) (l : LCFSInfo ℝ)
    (hl : LCFSInfo.make r0 z0 aspect kappa delta shift sq = .ok l) (n : ℕ) (hn : 5 ≤ n)
    (pts : List (ℝ × ℝ)) (h : fluxSurface .fausser l 1 n = .ok pts) :
    containsPoint pts ((paramOPoint l).x, (paramOPoint l).z) = true := by
  obtain ⟨ha, hk, hd⟩ := made_pos _ _ _ _ _ _ _ l hl
  obtain ⟨⟨e1, e2, e3, e4, e5, e6, e7⟩, -⟩ := C39_stored _ _ _ _ _ _ _ l hl
  have hacc := (C39_accepted r0 z0 aspect kappa delta shift sq).1 ⟨l, hl⟩
  obtain ⟨hcl, -, -⟩ := C66_winds_once _ _ _ _ _ _ _ l hl 1 n (by omega) pts h
  obtain ⟨m, rfl⟩ : ∃ m, n = m + 1 := ⟨n - 1, by omega⟩
  have e := fausser_list l 1 m (by omega) pts h
  rw [C65_winding pts hcl.2 (by rw [e]; simp; omega), e]
  have := fausser_axis_winding l ha hk hd (by rw [e7]; exact abs_nonneg _)
    (by rw [e7, e1, e3]; exact hacc.2.2.2.2) m (by omega)
  simp only [paramOPoint]
  rw [this]
  decide

/-- C66.  So the spatial sampling of the source always contains the magnetic axis, whatever the cell
size: the source is never empty. -/
theorem C66_never_empty (r0 z0 aspect kappa delta shift sq : ℝ) (l : LCFSInfo ℝ)
    (hl : LCFSInfo.make r0 z0 aspect kappa delta shift sq = .ok l) (n : ℕ) (hn : 5 ≤ n)
    (pts : List (ℝ × ℝ)) (h : fluxSurface .fausser l 1 n = .ok pts) (L : ℝ) (hL : 0 < L) :
    ((paramOPoint l).x, (paramOPoint l).z) ∈ samplePoints (pts.map Prod.fst) (pts.map Prod.snd)
      (containsPoint pts) (paramOPoint l).x (paramOPoint l).z L :=
  C13_o_point _ _ _ (C65_within_box pts) _ _ _ hL (C66_axis_inside _ _ _ _ _ _ _ l hl n hn pts h)

/-- C66.  As the cells shrink, the volumes of the sampled cells add up to the volume reported for
the last closed flux surface, and their cross sections to its reported area. -/
theorem C66_volume (r0 z0 aspect kappa delta shift sq : ℝ) (l : LCFSInfo ℝ)
    (hl : LCFSInfo.make r0 z0 aspect kappa delta shift sq = .ok l) (n : ℕ) (hn : 3 ≤ n)
    (pts : List (ℝ × ℝ)) (h : fluxSurface .fausser l 1 n = .ok pts) :
    Tendsto (fun L : ℝ => (sampleSpace2d Real.pi (pts.map Prod.fst) (pts.map Prod.snd)
      (containsPoint pts) (paramOPoint l).x (paramOPoint l).z L).dVolume.sum) (𝓝[>] 0)
        (𝓝 (surfaceVolume pts)) ∧
    Tendsto (fun L : ℝ => ((sampleSpace2d Real.pi (pts.map Prod.fst) (pts.map Prod.snd)
      (containsPoint pts) (paramOPoint l).x (paramOPoint l).z L).x.length : ℝ) * L ^ 2) (𝓝[>] 0)
        (𝓝 (getArea2d pts)) := by
  obtain ⟨hcl, -, hw⟩ := C66_winds_once _ _ _ _ _ _ _ l hl 1 n hn pts h
  have hlen : 3 ≤ pts.length := by
    rw [fluxSurface_eq _ _ _ _ _ h]
    unfold angles
    rw [if_neg (by omega)]
    simpa using hn
  exact C17_lcfs_volume pts hcl hlen 1 hw _ _

/-- An accepted plasma (major radius 9, minor radius 3, shift 1/2, 100 points) meets the hypotheses. -/
example : ∃ l pts, LCFSInfo.make (9 : ℝ) 0 3 1.7 0.3 0.5 0 = .ok l ∧
    fluxSurface .fausser l 1 100 = .ok pts ∧
    ((paramOPoint l).x, (paramOPoint l).z) ∈ samplePoints (pts.map Prod.fst) (pts.map Prod.snd)
      (containsPoint pts) (paramOPoint l).x (paramOPoint l).z 0.2 := by
  obtain ⟨l, hl⟩ := (C39_accepted (9 : ℝ) 0 3 1.7 0.3 0.5 0).2 (by norm_num [abs_of_pos])
  obtain ⟨pts, hp, -⟩ := C42_closed .fausser l 1 100 (by norm_num)
  exact ⟨l, pts, hl, hp, C66_never_empty _ _ _ _ _ _ _ l hl 100 (by norm_num) pts hp _ (by norm_num)⟩

end
end TNS
