import Verif.Spec.FluxMap
import Verif.Lemmas.MapM
import Verif.Props.FausserVolume
import Verif.Props.Resample
/-
C73: `FluxMap.get_flux_surface` and `FluxMap.volume`.
-/

set_option autoImplicit false

namespace TNS
open Spec
noncomputable section

theorem get_one (i : FluxInterp) (p : ℝ) (n : Option ℕ) :
    i.getFluxSurface (.one p) n = (i.surface p n).map PsiResult.one := by
  simp only [FluxInterp.getFluxSurface]
  cases i.surface p n <;> rfl

theorem get_many (i : FluxInterp) (ps : List ℝ) (n : Option ℕ) :
    i.getFluxSurface (.many ps) n = (ps.mapM (fun p => i.surface p n)).map PsiResult.many := by
  simp only [FluxInterp.getFluxSurface]
  cases ps.mapM (fun p => i.surface p n) <;> rfl

theorem getOne_iff (i : FluxInterp) (p : ℝ) (n : Option ℕ) (f : Surface ℝ) :
    i.getFluxSurface (.one p) n = .ok (.one f) ↔ i.surface p n = .ok f := by
  rw [get_one]
  cases h : i.surface p n with
  | error e => simp [Except.map]
  | ok g => simp [Except.map]

/-- C73.  A scalar request gives one surface, a list of requests the list of the surfaces each request
alone gives, in order; it succeeds exactly when every request does. -/
theorem C73_many (i : FluxInterp) (n : Option ℕ) (ps : List ℝ) (fs : List (Surface ℝ)) :
    i.getFluxSurface (.many ps) n = .ok (.many fs) ↔
      List.Forall₂ (fun p f => i.getFluxSurface (.one p) n = .ok (.one f)) ps fs := by
  have h1 : i.getFluxSurface (.many ps) n = .ok (.many fs) ↔
      ps.mapM (fun p => i.surface p n) = .ok fs := by
    rw [get_many]
    cases h : ps.mapM (fun p => i.surface p n) with
    | error e => simp [Except.map]
    | ok g => simp [Except.map]
  rw [h1, mapM_ok_iff]
  simp only [getOne_iff]

theorem volume_one (i : FluxInterp) (p : ℝ) :
    i.volume (.one p) = (i.surface p none).map (fun s => .one s.volume) := by
  unfold FluxInterp.volume
  rw [get_one]
  cases i.surface p none <;> rfl

/-- C73.  The volume for a scalar is that of the surface; for a list of requests, the list of volumes
each request alone gives. -/
theorem C73_volume_many (i : FluxInterp) (ps : List ℝ) (vs : List ℝ) :
    i.volume (.many ps) = .ok (.many vs) ↔
      List.Forall₂ (fun p v => i.volume (.one p) = .ok (.one v)) ps vs := by
  have h1 : i.volume (.many ps) = .ok (.many vs) ↔
      ps.mapM (fun p => (i.surface p none).map Surface.volume) = .ok vs := by
    unfold FluxInterp.volume
    rw [get_many]
    have h2 : ∀ qs : List ℝ, qs.mapM (fun p => (i.surface p none).map Surface.volume) =
        (qs.mapM (fun p => i.surface p none)).map (List.map Surface.volume) := by
      intro qs
      induction qs with
      | nil => rfl
      | cons q qs ih =>
        rw [List.mapM_cons, List.mapM_cons, ih]
        cases i.surface q none with
        | error e => rfl
        | ok f => cases qs.mapM (fun p => i.surface p none) <;> rfl
    rw [h2]
    cases h : ps.mapM (fun p => i.surface p none) with
    | error e => simp [Bind.bind, Except.bind, Except.map]
    | ok g => simp [Bind.bind, Except.bind, Pure.pure, Except.pure, Except.map]
  rw [h1, mapM_ok_iff]
  have h3 : ∀ p v, ((i.surface p none).map Surface.volume = .ok v) ↔
      i.volume (.one p) = .ok (.one v) := by
    intro p v
    rw [volume_one]
    cases i.surface p none with
    | error e => simp [Except.map]
    | ok f => simp [Except.map]
  simp only [h3]

/-- All points at one height: no area, no volume. -/
theorem flat_area (l : List (ℝ × ℝ)) (h : ExactlyClosed l) (z : ℝ) (hz : ∀ p ∈ l, p.2 = z) :
    getArea2d l = 0 := by
  rw [C45_area l h, abs_eq_zero, contour_eq]
  have hc := chain_and_mem (fun _ _ => True) (fun p => p.2 = z) l
    (by clear h hz; induction l with
        | nil => simp
        | cons a l ih => cases l with
          | nil => simp
          | cons b l => rw [List.isChain_cons_cons]; exact ⟨trivial, ih⟩) hz
  have h1 := edgeSum_le (segIntegral fun x _ => x) (fun _ _ => 0 * (0 : ℝ)) l
    (hc.imp fun p q hpq => by rw [seg_x, hpq.2.1, hpq.2.2]; simp)
  have h2 := edgeSum_le (fun _ _ => 0 * (0 : ℝ)) (segIntegral fun x _ => x) l
    (hc.imp fun p q hpq => by rw [seg_x, hpq.2.1, hpq.2.2]; simp)
  rw [edgeSum_mul] at h1 h2
  linarith

/-- C73.  A map built from a parameterisation: whatever the radii and the convention it was built with,
`get_flux_surface(p)` without a number of points uses the number of points of the map; the volume at 1
is the volume of the LCFS, the volume at 0 is 0. -/
theorem C73_param (p : Parameterisation) (l : LCFSInfo ℝ) (rho : List ℝ) (n : ℕ) (hn : 1 ≤ n)
    (conv : FluxConvention) (m : ParamMap) (hm : fromParameterisation p l rho n conv = .ok m) :
    (∀ psi, (FluxInterp.param p l n).getFluxSurface (.one psi) none =
      (FluxInterp.param p l n).getFluxSurface (.one psi) (some n)) ∧
    (FluxInterp.param p l n).getFluxSurface (.one 1) none = .ok (.one (.closed m.lcfs)) ∧
    (FluxInterp.param p l n).volume (.one 1) = .ok (.one (surfaceVolume m.lcfs)) ∧
    (FluxInterp.param p l n).volume (.one 0) = .ok (.one 0) := by
  have hl : fluxSurface p l 1 n = .ok m.lcfs := by
    unfold fromParameterisation at hm
    cases h : fluxSurface p l 1 n with
    | error e => rw [h] at hm; simp [Bind.bind, Except.bind] at hm
    | ok s =>
      rw [h] at hm
      simp only [Bind.bind, Except.bind] at hm
      split at hm
      · simp at hm
      · split_ifs at hm
        simp only [Except.ok.injEq] at hm
        rw [← hm]
  refine ⟨fun psi => rfl, ?_, ?_, ?_⟩
  · rw [getOne_iff]; simp [FluxInterp.surface, hl, Bind.bind, Except.bind, Pure.pure, Except.pure]
  · rw [volume_one]
    simp [FluxInterp.surface, hl, Bind.bind, Except.bind, Pure.pure, Except.pure, Except.map,
      Surface.volume]
  · rw [volume_one]
    obtain ⟨s, hs, hlen, hh, hla⟩ := C42_closed p l 0 n hn
    have hcl : ExactlyClosed s :=
      ⟨by intro h0; rw [h0] at hlen; simp at hlen; omega, hla.symm⟩
    have hz : ∀ q ∈ s, q.2 = l.z0 := by
      intro q hq
      rw [fluxSurface_eq _ _ _ _ _ hs] at hq
      obtain ⟨al, -, rfl⟩ := List.mem_map.1 hq
      cases p <;> simp [Parameterisation.point, fausserPoint, sauterPoint]
    have ha := flat_area s hcl l.z0 hz
    simp [FluxInterp.surface, hs, Bind.bind, Except.bind, Pure.pure, Except.pure, Except.map,
      Surface.volume, surfaceVolume, ha]

/-- C73.  The number of points asked for, or that of the map, is the number of points returned, whatever
the flux. -/
theorem C73_points (p : Parameterisation) (l : LCFSInfo ℝ) (n0 : ℕ) (n : Option ℕ)
    (hn : 1 ≤ n.getD n0) (psi : ℝ) :
    ∃ s, (FluxInterp.param p l n0).getFluxSurface (.one psi) n = .ok (.one (.closed s)) ∧
      s.length = n.getD n0 := by
  obtain ⟨s, hs, hlen, -⟩ := C42_closed p l psi (n.getD n0) hn
  refine ⟨s, ?_, hlen⟩
  rw [getOne_iff]
  simp [FluxInterp.surface, hs, Bind.bind, Except.bind, Pure.pure, Except.pure]

/-- C73.  A map built from an EQDSK: the volume at any flux up to 0 is 0, and beyond 1 it is that
at 1. -/
theorem C73_eqdsk_volume (contours : ℝ → List (List (ℝ × ℝ))) (o : FluxPoint ℝ) (psi : ℝ) :
    (psi ≤ 0 → (FluxInterp.eqdsk contours o).volume (.one psi) = .ok (.one 0)) ∧
    (1 ≤ psi → (FluxInterp.eqdsk contours o).volume (.one psi) =
      (FluxInterp.eqdsk contours o).volume (.one 1)) := by
  constructor
  · intro h
    rw [volume_one]
    simp only [FluxInterp.surface, eqdskFluxSurface, clip_le psi h, if_true]
    rfl
  · intro h
    rw [volume_one, volume_one]
    simp only [FluxInterp.surface, eqdskFluxSurface, clip_ge psi h, clip_ge (1 : ℝ) (le_refl _)]

/-- C73.  In a map built from a parameterisation, the points of the surface returned for a radius `r` of
the profile are data points of the flux interpolator, with normalised flux `r` (LINEAR) or `√r` (SQRT):
with the SQRT convention the surface returned for `r` is not the surface of normalised flux `r`. -/
theorem C73_surface_label (p : Parameterisation) (l : LCFSInfo ℝ) (rho : List ℝ) (n : ℕ) (hn : 1 ≤ n)
    (conv : FluxConvention) (m : ParamMap) (hm : fromParameterisation p l rho n conv = .ok m) (r : ℝ)
    (hr : r ∈ rho) (hr0 : 0 < r) (s : List (ℝ × ℝ))
    (hs : (FluxInterp.param p l n).getFluxSurface (.one r) none = .ok (.one (.closed s))) :
    ∀ q ∈ s, (q, if conv = .sqrt then Real.sqrt r else r) ∈ List.zip m.pts m.labels := by
  obtain ⟨m', hm', -, -, -, hz⟩ := C48_labels p l rho n hn ⟨r, hr, hr0⟩ conv
  obtain rfl : m = m' := by rw [hm] at hm'; exact Except.ok.inj hm'
  rw [hz]
  intro q hq
  have hs' : s = (angles n).map (p.point l r) := by
    rw [getOne_iff] at hs
    simp only [FluxInterp.surface, Option.getD_none] at hs
    cases h : fluxSurface p l r n with
    | error e => rw [h] at hs; simp [Bind.bind, Except.bind] at hs
    | ok t =>
      rw [h] at hs
      simp only [Bind.bind, Except.bind, Pure.pure, Except.pure, Except.ok.injEq,
        Surface.closed.injEq] at hs
      rw [← hs]
      exact fluxSurface_eq _ _ _ _ _ h
  rw [hs'] at hq
  refine List.mem_cons_of_mem _ (List.mem_flatMap.2 ⟨r, ?_, ?_⟩)
  · exact List.mem_filter.2 ⟨hr, by simpa using hr0⟩
  · exact List.mem_map.2 ⟨q, hq, by cases conv <;> rfl⟩

theorem fausserVolume_api (l : LCFSInfo ℝ) (n : ℕ) (hn : 1 ≤ n) (psi : ℝ) :
    (FluxInterp.param .fausser l n).volume (.one psi) = .ok (.one (fausserVolume l n psi)) := by
  obtain ⟨s, hs, -⟩ := C42_closed .fausser l psi n hn
  rw [volume_one]
  have e := fluxSurface_eq _ _ _ _ _ hs
  simp only [FluxInterp.surface, Option.getD_none, hs, Bind.bind, Except.bind, Pure.pure, Except.pure,
    Except.map, Surface.volume, fausserVolume]
  rw [e]
  rfl

theorem volumeIncreases_iff (l : LCFSInfo ℝ) (n : ℕ) (hn : 1 ≤ n) :
    VolumeIncreases (FluxInterp.param .fausser l n) ↔
      StrictMonoOn (fausserVolume l n) (Set.Icc 0 1) := by
  constructor
  · intro h a ha b hb hab
    obtain ⟨vs, vt, h1, h2, h3⟩ := h a b ha.1 hab hb.2
    rw [fausserVolume_api l n hn] at h1 h2
    simp only [Except.ok.injEq, PsiResult.one.injEq] at h1 h2
    rw [h1, h2]; exact h3
  · intro h s t hs hst ht
    exact ⟨_, _, fausserVolume_api l n hn s, fausserVolume_api l n hn t,
      h ⟨hs, hst.le.trans ht⟩ ⟨hs.trans hst.le, ht⟩ hst⟩

/-- C73.  For a Fausser map with at least 5 points per surface, the reported volume grows strictly with
the flux exactly when `2 (r_0 - Δ) + 3 (x_c - r_0) ≥ 0`, with `x_c` the centroid radius of the LCFS. -/
theorem C73_fausser_monotone_iff (r0 z0 aspect kappa delta shift sq : ℝ) (l : LCFSInfo ℝ)
    (hl : LCFSInfo.make r0 z0 aspect kappa delta shift sq = .ok l) (n : ℕ) (hn : 5 ≤ n)
    (lcfs : List (ℝ × ℝ)) (h1 : fluxSurface .fausser l 1 n = .ok lcfs) :
    VolumeIncreases (FluxInterp.param .fausser l n) ↔
      0 ≤ 2 * (r0 - |shift|) + 3 * ((getCentroid2d lcfs).1 - r0) := by
  rw [volumeIncreases_iff l n (by omega), fausser_monotone_iff _ _ _ _ _ _ _ l hl n hn lcfs h1]

/-- C73.  The reported volume of a Fausser map grows strictly with the flux for every accepted plasma
with nested surfaces (shift at most half the minor radius), and for every accepted plasma of aspect ratio
at least 3/2; more generally whenever `2 Δ + a ≤ 2 r_0`.  The centroid of its LCFS lies at most a third
of the minor radius inside the geometric centre. -/
theorem C73_fausser_monotone (r0 z0 aspect kappa delta shift sq : ℝ) (l : LCFSInfo ℝ)
    (hl : LCFSInfo.make r0 z0 aspect kappa delta shift sq = .ok l) (n : ℕ) (hn : 5 ≤ n) :
    ((2 * |shift| + r0 / aspect ≤ 2 * r0 ∨ 2 * |shift| ≤ r0 / aspect ∨ 3 / 2 ≤ aspect) →
      VolumeIncreases (FluxInterp.param .fausser l n)) ∧
    ∀ lcfs, fluxSurface .fausser l 1 n = .ok lcfs → r0 - r0 / aspect / 3 ≤ (getCentroid2d lcfs).1 := by
  obtain ⟨lcfs, h1, -⟩ := C42_closed .fausser l 1 n (by omega)
  refine ⟨fun h => ?_, fun s hs => ?_⟩
  · rw [volumeIncreases_iff l n (by omega)]
    exact (fausser_monotone _ _ _ _ _ _ _ l hl n hn lcfs h1).2 h
  · exact (fausser_monotone _ _ _ _ _ _ _ l hl n hn s hs).1

/-- The centroid of the four-cornered LCFS. -/
theorem diamond_centroid (l : LCFSInfo ℝ)
    (hl : LCFSInfo.make (11 / 10 : ℝ) 0 (11 / 10) 1 1 (99 / 100) 0 = .ok l) (lcfs : List (ℝ × ℝ))
    (h1 : fluxSurface .fausser l 1 5 = .ok lcfs) :
    (getCentroid2d lcfs).1 = 11 / 10 - Real.sin 1 / 3 ∧ getArea2d lcfs = 2 := by
  obtain ⟨⟨e1, e2, e3, e4, e5, -, e7⟩, -⟩ := C39_stored _ _ _ _ _ _ _ l hl
  have hcl := fausser_exactlyClosed l 1 5 (by norm_num) lcfs h1
  have a3 : 2 * Real.pi * (3 / 4) = Real.pi + Real.pi / 2 := by ring
  have a1 : 2 * Real.pi * (1 / 4) = Real.pi / 2 := by ring
  have a2 : 2 * Real.pi * (2 / 4) = Real.pi := by ring
  have s3 : Real.sin (Real.pi + Real.pi / 2) = -1 := by simp [Real.sin_add]
  have c3 : Real.cos (Real.pi + Real.pi / 2 + -1) = -Real.sin 1 := by
    rw [Real.cos_add]; simp [Real.sin_add, Real.cos_add]
  have c1 : Real.cos (Real.pi / 2 + 1) = -Real.sin 1 := by rw [Real.cos_add]; simp
  have el : lcfs = [(11 / 10 + 1, 0), (11 / 10 - Real.sin 1, 1), (11 / 10 - 1, 0),
      (11 / 10 - Real.sin 1, -1), (11 / 10 + 1, 0)] := by
    rw [fluxSurface_eq _ _ _ _ _ h1]
    have ea : angles 5 = [0, Real.pi / 2, Real.pi, Real.pi + Real.pi / 2, 2 * Real.pi] := by
      simp [angles, List.range_succ]
      norm_num
      refine ⟨by ring, by ring, by ring⟩
    rw [ea]
    simp only [List.map_cons, List.map_nil, Parameterisation.point, fausserPoint, e1, e2, e3, e4, e5,
      Real.sin_pi_div_two, s3, Real.sin_pi, Real.sin_zero, Real.sin_two_pi]
    simp [c1, c3]
    norm_num
    ring_nf
  have k1 : contour (fun x _ => x) lcfs = 2 := by
    rw [el]; simp only [contour, seg_x]; ring
  have k2 : contour (fun x _ => x ^ 2) lcfs = 4 * (11 / 10 - Real.sin 1 / 3) := by
    rw [el]; simp only [contour, seg_xx]; ring
  have ha : getArea2d lcfs = 2 := by rw [C45_area lcfs hcl, k1]; norm_num
  refine ⟨?_, ha⟩
  rw [(C45_centroid lcfs hcl (by rw [ha]; norm_num)).1, k1, k2]
  ring

/-- C73.  The condition is needed: some accepted plasma (aspect ratio 1.1, shift 0.99 of the minor
radius) reports a larger volume at flux 0.9 than for its whole LCFS. -/
theorem C73_volume_can_shrink : ∃ l v9 v1,
    LCFSInfo.make (11 / 10 : ℝ) 0 (11 / 10) 1 1 (99 / 100) 0 = .ok l ∧
    (FluxInterp.param .fausser l 5).volume (.one (9 / 10)) = .ok (.one v9) ∧
    (FluxInterp.param .fausser l 5).volume (.one 1) = .ok (.one v1) ∧ v1 < v9 := by
  obtain ⟨l, hl⟩ := (C39_accepted (11 / 10 : ℝ) 0 (11 / 10) 1 1 (99 / 100) 0).2
    (by norm_num [abs_of_pos])
  obtain ⟨lcfs, h1, -⟩ := C42_closed .fausser l 1 5 (by norm_num)
  obtain ⟨hc, ha⟩ := diamond_centroid l hl lcfs h1
  refine ⟨l, _, _, hl, fausserVolume_api l 5 (by norm_num) _, fausserVolume_api l 5 (by norm_num) _, ?_⟩
  rw [fausserVolume_eq _ _ _ _ _ _ _ l hl 5 (le_refl _) lcfs h1,
    fausserVolume_eq _ _ _ _ _ _ _ l hl 5 (le_refl _) lcfs h1, hc, ha]
  have hs : 1 - 1 ^ 3 / 6 < Real.sin (1 : ℝ) := Real.sin_gt_sub_cube one_pos
  have habs : |(99 / 100 : ℝ)| = 99 / 100 := abs_of_pos (by norm_num)
  rw [habs]
  apply mul_lt_mul_of_pos_left _ (by have := Real.pi_pos; positivity)
  norm_num at hs ⊢
  nlinarith

/-- A plasma that meets the condition (minor radius 3, shift 1/2, 100 points). -/
example : ∃ l, LCFSInfo.make (9 : ℝ) 0 3 1.7 0.3 0.5 0 = .ok l ∧
    VolumeIncreases (FluxInterp.param .fausser l 100) := by
  obtain ⟨l, hl⟩ := (C39_accepted (9 : ℝ) 0 3 1.7 0.3 0.5 0).2 (by norm_num [abs_of_pos])
  exact ⟨l, hl, (C73_fausser_monotone _ _ _ _ _ _ _ l hl 100 (by norm_num)).1
    (Or.inr (Or.inr (by norm_num)))⟩

end
end TNS
