import Verif.Props.FausserSource
import Verif.Props.PointInPath
/-
The plasma region of a Fausser map surrounds the magnetic axis: at least the lower half of a disc about
the axis is inside (the even-odd test is half open, so a vertex at the height of the axis may cut off
the upper half for a negligible set).
-/

set_option autoImplicit false

namespace TNS
open Spec Filter Topology
noncomputable section

theorem edge_mem (l : LCFSInfo ℝ) (m : ℕ) (hm : 1 ≤ m) (e : (ℝ × ℝ) × (ℝ × ℝ))
    (he : e ∈ pathEdges ((List.range (m + 1)).map (fv l 1 m))) :
    (∃ i < m, e = (fv l 1 m i, fv l 1 m (i + 1))) ∨ e.1 = e.2 := by
  rw [List.range_succ_eq_map, List.map_cons, pathEdges] at he
  obtain ⟨i, hi, rfl⟩ := List.mem_iff_getElem.1 he
  rw [List.length_zip] at hi
  simp only [List.length_cons, List.length_map, List.length_range, List.length_append,
    List.length_nil] at hi
  rw [List.getElem_zip]
  rcases Nat.lt_or_ge i m with h | h
  · left
    refine ⟨i, h, ?_⟩
    refine Prod.ext ?_ ?_
    · cases i with
      | zero => simp
      | succ i => simp
    · simp only
      rw [List.getElem_append_left (by simpa using h)]
      simp
  · right
    obtain rfl : i = m := by omega
    obtain ⟨k, rfl⟩ : ∃ k, i = k + 1 := ⟨i - 1, by omega⟩
    simp only [List.getElem_cons_succ, List.getElem_map, List.getElem_range]
    rw [List.getElem_append_right (by simp)]
    simp [fv_last l 1 (k + 1) (by omega)]

/-- An edge that straddles the height of the axis does not pass through it. -/
theorem fausser_axis_clear (l : LCFSInfo ℝ) (ha : 0 < l.r0 / l.aspect) (hk : 1 ≤ l.kappa)
    (hd : -1 ≤ l.delta ∧ l.delta ≤ 1) (hs0 : 0 ≤ l.shift) (hs : l.shift < l.r0 / l.aspect)
    (m : ℕ) (hm : 4 ≤ m) (i : ℕ) (hi : i < m)
    (hst : decide (l.z0 ≤ (fv l 1 m i).2) ≠ decide (l.z0 ≤ (fv l 1 m (i + 1)).2)) :
    ((fv l 1 m (i + 1)).1 - (l.r0 + l.shift)) * ((fv l 1 m i).2 - (fv l 1 m (i + 1)).2) ≠
      ((fv l 1 m (i + 1)).2 - l.z0) * ((fv l 1 m i).1 - (fv l 1 m (i + 1)).1) := by
  have hm0 : (0 : ℝ) < m := by positivity
  have hp := Real.pi_pos
  have hak : 0 < l.r0 / l.aspect * l.kappa := mul_pos ha (by linarith)
  have fx : ∀ i, (fv l 1 m i).1 = l.r0 + l.r0 / l.aspect *
      Real.cos (2 * Real.pi * ((i : ℝ) / (m : ℝ)) + l.delta * Real.sin (2 * Real.pi * ((i : ℝ) / (m : ℝ)))) := by
    intro i; simp [fv, fausserPoint]
  have fz : ∀ i, (fv l 1 m i).2 = l.z0 + l.r0 / l.aspect * l.kappa *
      Real.sin (2 * Real.pi * ((i : ℝ) / (m : ℝ))) := by
    intro i; simp [fv, fausserPoint]
  have up : ∀ i, 2 * i ≤ m → l.z0 ≤ (fv l 1 m i).2 := by
    intro i hi
    rw [fz]
    have := mul_nonneg hak.le (sin_vertex_nonneg m i (by omega) hi)
    linarith
  have dn : ∀ i, m < 2 * i → i < m → (fv l 1 m i).2 < l.z0 := by
    intro i hi hi'
    rw [fz]
    have := mul_neg_of_pos_of_neg hak (sin_vertex_neg m i (by omega) hi hi')
    linarith
  have last : fv l 1 m m = (l.r0 + l.r0 / l.aspect, l.z0) := by
    rw [fv_last l 1 m (by omega)]
    refine Prod.ext ?_ ?_
    · rw [fx]; simp
    · rw [fz]; simp
  by_cases hlast : i = m - 1
  · have e1 : i + 1 = m := by omega
    rw [e1, last]
    have := dn i (by omega) hi
    simp only [sub_self, zero_mul]
    exact mul_ne_zero (by linarith) (by linarith)
  · -- the edge on the inboard side
    have hlow : 2 * i ≤ m := by
      by_contra hh
      exact hst (by rw [decide_eq_false (not_le.2 (dn i (by omega) hi)),
        decide_eq_false (not_le.2 (dn (i + 1) (by omega) (by omega)))])
    have hhigh : m < 2 * (i + 1) := by
      by_contra hh
      exact hst (by rw [decide_eq_true (up i hlow), decide_eq_true (up (i + 1) (by omega))])
    have h1 := dn (i + 1) hhigh (by omega)
    have h2 := up i hlow
    intro h3
    rcases Nat.eq_or_lt_of_le hlow with he | hlt
    · have eang : 2 * Real.pi * ((i : ℝ) / (m : ℝ)) = Real.pi := by
        have : (m : ℝ) = 2 * i := by exact_mod_cast he.symm
        have hi0 : (i : ℝ) ≠ 0 := by
          intro h0; rw [h0] at this; linarith
        rw [this]; field_simp
      have ex : (fv l 1 m i).1 = l.r0 - l.r0 / l.aspect := by
        rw [fx, eang]; simp; ring
      have ez : (fv l 1 m i).2 = l.z0 := by rw [fz, eang]; simp
      rw [ex, ez] at h3
      have h5 : (l.z0 - (fv l 1 m (i + 1)).2) * (l.shift + l.r0 / l.aspect) = 0 := by linear_combination -h3
      rcases mul_eq_zero.1 h5 with h | h <;> linarith
    · have hm2 : m = 2 * i + 1 := by omega
      have hmr : (m : ℝ) = 2 * i + 1 := by exact_mod_cast hm2
      have hi2 : (2 : ℝ) ≤ i := by exact_mod_cast (by omega : 2 ≤ i)
      set t := Real.pi / m with ht
      have ht0 : 0 < t := div_pos hp hm0
      have ht1 : t ≤ Real.pi / 5 := by
        rw [ht]; apply div_le_div_of_nonneg_left hp.le (by norm_num); linarith
      have e1 : 2 * Real.pi * ((i : ℝ) / (m : ℝ)) = Real.pi - t := by
        rw [ht, hmr]; field_simp; ring
      have e2 : 2 * Real.pi * (((i + 1 : ℕ) : ℝ) / (m : ℝ)) = Real.pi + t := by
        rw [ht, hmr]; push_cast; field_simp; ring
      have ex1 : (fv l 1 m i).1 = l.r0 - l.r0 / l.aspect * Real.cos (t - l.delta * Real.sin t) := by
        rw [fx, e1, Real.sin_pi_sub, show Real.pi - t + l.delta * Real.sin t =
          Real.pi - (t - l.delta * Real.sin t) by ring, Real.cos_pi_sub]; ring
      have ex2 : (fv l 1 m (i + 1)).1 =
          l.r0 - l.r0 / l.aspect * Real.cos (t - l.delta * Real.sin t) := by
        rw [fx, e2, add_comm Real.pi t, Real.sin_add_pi, show t + Real.pi + l.delta * -Real.sin t =
          (t - l.delta * Real.sin t) + Real.pi by ring, Real.cos_add_pi]; ring
      have hst : Real.sin t ≤ t := Real.sin_le ht0.le
      have hst0 : 0 ≤ Real.sin t := Real.sin_nonneg_of_nonneg_of_le_pi ht0.le (by linarith)
      have hds : |l.delta * Real.sin t| ≤ t := by
        rw [abs_mul, abs_of_nonneg hst0]
        have := abs_le.2 hd
        nlinarith [abs_nonneg l.delta]
      have hcos : 0 < Real.cos (t - l.delta * Real.sin t) := by
        obtain ⟨q1, q2⟩ := abs_le.1 hds
        apply Real.cos_pos_of_mem_Ioo
        constructor <;> linarith
      rw [ex1, ex2, sub_self, mul_zero] at h3
      have hc2 := mul_pos ha hcos
      rcases mul_eq_zero.1 h3 with h | h <;> linarith

/-- C66.  The plasma of an accepted Fausser map contains the lower half of a disc about its magnetic
axis. -/
theorem C66_axis_neighbourhood (r0 z0 aspect kappa delta shift sq : ℝ) (l : LCFSInfo ℝ)
    (hl : LCFSInfo.make r0 z0 aspect kappa delta shift sq = .ok l) (n : ℕ) (hn : 5 ≤ n)
    (pts : List (ℝ × ℝ)) (h : fluxSurface .fausser l 1 n = .ok pts) :
    ∃ ε > 0, ∀ x z : ℝ, |x - (paramOPoint l).x| < ε → (paramOPoint l).z - ε < z →
      z ≤ (paramOPoint l).z → containsPoint pts (x, z) = true := by
  have hin := C66_axis_inside _ _ _ _ _ _ _ l hl n hn pts h
  obtain ⟨ha, hk, hd⟩ := made_pos _ _ _ _ _ _ _ l hl
  obtain ⟨⟨e1, e2, e3, e4, e5, e6, e7⟩, -⟩ := C39_stored _ _ _ _ _ _ _ l hl
  have hacc := (C39_accepted r0 z0 aspect kappa delta shift sq).1 ⟨l, hl⟩
  obtain ⟨m, rfl⟩ : ∃ m, n = m + 1 := ⟨n - 1, by omega⟩
  have e := fausser_list l 1 m (by omega) pts h
  set p : ℝ × ℝ := ((paramOPoint l).x, (paramOPoint l).z) with hp
  have hev : ∀ᶠ q in 𝓝[{q : ℝ × ℝ | q.2 ≤ p.2}] p, ∀ ed ∈ pathEdges pts,
      crosses q ed.1 ed.2 = crosses p ed.1 ed.2 := by
    refine (eventually_all_finite (List.finite_toSet (pathEdges pts))).2 fun ed hed => ?_
    -- heights
    have hle : ∀ y : ℝ, ∀ᶠ q : ℝ × ℝ in 𝓝[{q : ℝ × ℝ | q.2 ≤ p.2}] p, decide (q.2 ≤ y) = decide (p.2 ≤ y) := by
      intro y
      rcases le_or_gt p.2 y with hy | hy
      · filter_upwards [self_mem_nhdsWithin] with q hq
        have hq : q.2 ≤ p.2 := hq
        simp [hy, hq.trans hy]
      · have : ∀ᶠ q : ℝ × ℝ in 𝓝 p, y < q.2 := (continuous_snd.continuousAt).eventually_const_lt hy
        filter_upwards [mem_nhdsWithin_of_mem_nhds this] with q hq
        simp [not_le.2 hy, not_le.2 hq]
    by_cases hstr : decide (p.2 ≤ ed.1.2) = decide (p.2 ≤ ed.2.2)
    · filter_upwards [hle ed.1.2, hle ed.2.2] with q h1 h2
      simp only [crosses, h1, h2, hstr, bne_self_eq_false, Bool.false_and]
    · have hne : (ed.2.1 - p.1) * (ed.1.2 - ed.2.2) ≠ (ed.2.2 - p.2) * (ed.1.1 - ed.2.1) := by
        rw [e] at hed
        rcases edge_mem l m (by omega) ed hed with ⟨i, hi, rfl⟩ | heq
        · exact fausser_axis_clear l ha hk hd (by rw [e7]; exact abs_nonneg _)
            (by rw [e7, e1, e3]; exact hacc.2.2.2.2) m (by omega) i hi hstr
        · rw [heq] at hstr; exact absurd rfl hstr
      have h3 : ∀ᶠ q : ℝ × ℝ in 𝓝 p,
          decide ((ed.2.1 - q.1) * (ed.1.2 - ed.2.2) ≤ (ed.2.2 - q.2) * (ed.1.1 - ed.2.1)) =
          decide ((ed.2.1 - p.1) * (ed.1.2 - ed.2.2) ≤ (ed.2.2 - p.2) * (ed.1.1 - ed.2.1)) := by
        have c1 : Continuous fun q : ℝ × ℝ => (ed.2.1 - q.1) * (ed.1.2 - ed.2.2) := by fun_prop
        have c2 : Continuous fun q : ℝ × ℝ => (ed.2.2 - q.2) * (ed.1.1 - ed.2.1) := by fun_prop
        rcases lt_or_gt_of_ne hne with h | h
        · filter_upwards [c1.continuousAt.eventually_lt c2.continuousAt h] with q hq
          rw [decide_eq_true hq.le, decide_eq_true h.le]
        · filter_upwards [c2.continuousAt.eventually_lt c1.continuousAt h] with q hq
          rw [decide_eq_false (not_le.2 hq), decide_eq_false (not_le.2 h)]
      filter_upwards [hle ed.1.2, hle ed.2.2, mem_nhdsWithin_of_mem_nhds h3] with q h1 h2 h3
      simp only [crosses, h1, h2, h3]
  have hcp : ∀ᶠ q in 𝓝[{q : ℝ × ℝ | q.2 ≤ p.2}] p, containsPoint pts q = true := by
    filter_upwards [hev] with q hq
    rw [← hin]
    unfold containsPoint
    rw [foldl_xor_congr (fun e : (ℝ × ℝ) × (ℝ × ℝ) => crosses q e.1 e.2)
      (fun e : (ℝ × ℝ) × (ℝ × ℝ) => crosses p e.1 e.2) _ hq]
  rw [eventually_nhdsWithin_iff, Metric.eventually_nhds_iff] at hcp
  obtain ⟨ε, hε, hcp⟩ := hcp
  refine ⟨ε, hε, fun x z hx hz1 hz2 => hcp (y := (x, z)) ?_ hz2⟩
  rw [Prod.dist_eq, max_lt_iff]
  refine ⟨by rw [Real.dist_eq]; exact hx, ?_⟩
  rw [Real.dist_eq, abs_lt]
  constructor
  · show -ε < z - (paramOPoint l).z
    linarith
  · show z - (paramOPoint l).z < ε
    linarith

end
end TNS
