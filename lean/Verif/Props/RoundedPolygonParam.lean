import Verif.Props.RoundedPolygonDot
import Verif.Props.RoundedFluxParam
import Verif.Props.FluxMapApi
/-
C103: areas and volumes of the flux surfaces of a parameterised plasma in floating point.
-/

set_option autoImplicit false

namespace TNS
open Spec
noncomputable section

section
variable {A : Arith} {G : TrigLib} {D : DotLib} {u v w pi : ℝ}

/-- The points of a flux surface lie within the size of the plasma. -/
theorem point_extent {r0 z0 aspect kappa delta shift sq : ℝ} {l : LCFSInfo ℝ}
    (hl : LCFSInfo.make r0 z0 aspect kappa delta shift sq = .ok l) (p : Parameterisation) (psi al : ℝ) :
    |(p.point l psi al).1| ≤ extent l psi ∧ |(p.point l psi al).2| ≤ extent l psi := by
  obtain ⟨h1, h2, h3, h4, h5⟩ := (C39_accepted r0 z0 aspect kappa delta shift sq).1 ⟨l, hl⟩
  obtain ⟨⟨e1, e2, e3, e4, e5, e6, e7⟩, em, -, -, hs, -⟩ := C39_stored r0 z0 aspect kappa delta shift sq l hl
  obtain ⟨b1, b2, b3, b4⟩ := extent_bounds (l := l) (by rw [e1]; exact h1) (by rw [e3]; exact h2) (by rw [e4]; exact h3) hs psi
  have one : ∀ {c x : ℝ}, |x| ≤ 1 → |c * x| ≤ |c| := fun {c x} h => by
    rw [abs_mul]; exact mul_le_of_le_one_right (abs_nonneg _) h
  cases p with
  | fausser =>
    simp only [Parameterisation.point, fausserPoint]
    constructor
    · refine le_trans ?_ b1
      refine (abs_add_le _ _).trans (add_le_add ((abs_add_le _ _).trans (add_le_add le_rfl ?_)) ?_)
      · rw [mul_div_assoc]; exact one (Real.abs_cos_le_one _)
      · rw [abs_mul, abs_abs]
        refine mul_le_mul_of_nonneg_left ?_ (abs_nonneg _)
        rw [abs_le]
        constructor <;> nlinarith [sq_nonneg psi]
    · refine le_trans ?_ b4
      refine (abs_add_le _ _).trans (add_le_add le_rfl ?_)
      rw [← abs_mul, mul_div_assoc]
      exact one (Real.abs_sin_le_one _)
  | sauter =>
    simp only [Parameterisation.point, sauterPoint]
    rw [em, ← e1, ← e3]
    constructor
    · refine le_trans ?_ b2
      refine (abs_sub _ _).trans (add_le_add ((abs_add_le _ _).trans (add_le_add le_rfl ?_)) ?_)
      · exact one (Real.abs_cos_le_one _)
      · exact one (Real.abs_sin_le_one _)
    · refine le_trans ?_ b4
      refine (abs_add_le _ _).trans (add_le_add le_rfl ?_)
      rw [← abs_mul, mul_comm (psi * _)]
      exact one (Real.abs_sin_le_one _)

/-- C103.  The surfaces of a parameterised plasma (both parameterisations, every accepted parameter set, plasmas up to 45 m in double
precision): the computed surface is a polygon known to `w`, for every `w` that bounds `110 v` and the number of points times `u`. -/
theorem C103_surface (hA : StandardModel A u) (hG : AccurateTrig G v) (huv : u ≤ v) (hpi : |pi - Real.pi| ≤ u * Real.pi)
    {r0 z0 aspect kappa delta shift sq : ℝ} {l l' : LCFSInfo ℝ}
    (hl : LCFSInfo.make r0 z0 aspect kappa delta shift sq = .ok l)
    (hl' : LCFSInfo.makeR A r0 z0 aspect kappa delta shift sq = .ok l') (p : Parameterisation) {n : ℕ} (hn : 2 ≤ n)
    (hE : 50 * v * extent l 1 ≤ 1 / 10 ^ 12) (psi : ℝ) (hpsi : |psi| ≤ 1) (hv : 110 * v ≤ w) (hnu : (n : ℝ) * u ≤ w)
    (hw : w ≤ 1 / 10 ^ 5) :
    ∃ pts pts', fluxSurface p l psi n = .ok pts ∧ fluxSurfaceR A G pi p l' psi n = .ok pts' ∧ pts.length = n ∧
      PolygonKnown u w (extent l 1) (extent l 1) pts' pts := by
  have v0 := hA.u_nonneg.trans huv
  have el := made_both hl hl'
  obtain ⟨pts, pts', q1, q2, q3⟩ := surface_computed hA hG huv (by linarith) hpi hl p hn hE psi hpsi
  rw [← el] at q2
  obtain ⟨s, hs, hlen, -, hlast⟩ := C42_closed p l psi n (by omega)
  obtain rfl := Except.ok.inj (q1.symm.trans hs)
  obtain ⟨h1, h2, h3, h4, h5⟩ := (C39_accepted r0 z0 aspect kappa delta shift sq).1 ⟨l, hl⟩
  obtain ⟨⟨e1, e2, e3, e4, e5, e6, e7⟩, em, -, -, hsh, -⟩ := C39_stored r0 z0 aspect kappa delta shift sq l hl
  have mono := extent_mono (l := l) (by rw [e1]; exact h1) (by rw [e3]; exact h2) (by rw [e4]; exact h3) hsh hpsi
  have ep := fluxSurface_eq p l psi n pts q1
  have bd : ∀ q ∈ pts, |q.1| ≤ extent l 1 ∧ |q.2| ≤ extent l 1 := by
    intro q hq
    rw [ep] at hq
    obtain ⟨al, -, rfl⟩ := List.mem_map.1 hq
    obtain ⟨a, b⟩ := point_extent hl p psi al
    exact ⟨a.trans mono, b.trans mono⟩
  have ne : pts ≠ [] := by rintro rfl; simp at hlen; omega
  obtain ⟨q, hq⟩ := List.exists_mem_of_ne_nil _ ne
  have E0 := (abs_nonneg _).trans (bd q hq).1
  refine ⟨pts, pts', q1, q2, hlen, ⟨ne, hlast.symm⟩, fun q hq => (bd q hq).1, fun q hq => (bd q hq).2, q3.imp fun a b h => ?_,
    by rw [hlen]; exact hnu, hw⟩
  have := mul_le_mul_of_nonneg_right hv E0
  exact ⟨h.1.trans this, h.2.trans this⟩

/-- C103.  `FluxMap.volume` of a parameterised plasma: whenever the area of the flux surface is at least 100 units of area
(`w` times the number of points times the square of the size of the plasma), the computed volume is that of the exact surface up to
20 units of area times `2 π` the size of the plasma plus that of the centroid (the volume over the area). -/
theorem C103_param_volume (hA : StandardModel A u) (hG : AccurateTrig G v) (hD : AccurateDot D u) (huv : u ≤ v)
    (hpi : |pi - Real.pi| ≤ u * Real.pi) {r0 z0 aspect kappa delta shift sq : ℝ} {l l' : LCFSInfo ℝ}
    (hl : LCFSInfo.make r0 z0 aspect kappa delta shift sq = .ok l)
    (hl' : LCFSInfo.makeR A r0 z0 aspect kappa delta shift sq = .ok l') (p : Parameterisation) {n : ℕ} (hn : 2 ≤ n)
    (hE : 50 * v * extent l 1 ≤ 1 / 10 ^ 12) (psi : ℝ) (hpsi : |psi| ≤ 1) (hv : 110 * v ≤ w) (hnu : (n : ℝ) * u ≤ w)
    (hw : w ≤ 1 / 10 ^ 5) (surface : Surface ℝ) (vol : ℝ)
    (hs : (FluxInterp.param p l n).getFluxSurface (.one psi) none = .ok (.one surface))
    (hvol : (FluxInterp.param p l n).volume (.one psi) = .ok (.one vol)) (hpos : 0 < surface.area)
    (harea : 100 * (w * n * extent l 1 ^ 2) ≤ surface.area) :
    ∃ vol', paramVolumeR A G D pi p l' n (.one psi) = .ok (.one vol') ∧
      |vol' - vol| ≤ 20 * (w * n * extent l 1 ^ 2) * (2 * Real.pi * extent l 1 + |vol| / surface.area) := by
  obtain ⟨pts, pts', q1, q2, hlen, hk⟩ := C103_surface hA hG huv hpi hl hl' p hn hE psi hpsi hv hnu hw
  have hsf : (FluxInterp.param p l n).surface psi none = .ok (.closed pts) := by
    simp [FluxInterp.surface, q1, Bind.bind, Except.bind, Pure.pure, Except.pure]
  rw [getOne_iff, hsf] at hs
  obtain rfl := Except.ok.inj hs
  rw [volume_one, hsf] at hvol
  simp only [Except.map, Except.ok.injEq, PsiResult.one.injEq] at hvol
  subst hvol
  have hc : ExactlyClosed pts := hk.closed
  simp only [Surface.area, Surface.volume] at *
  have ct := areaTol w (extent l 1) (extent l 1) pts
  have te : areaTol w (extent l 1) (extent l 1) pts = w * n * extent l 1 ^ 2 := by unfold areaTol; rw [hlen]; ring
  refine ⟨surfaceVolumeR A D pi pts', ?_, ?_⟩
  · simp [paramVolumeR, q2, Bind.bind, Except.bind, Pure.pure, Except.pure]
  · have r := C103_volume hA hD hpi hk (getArea2d pts) (getCentroid2d pts).1 (C45_area _ hc) (C45_centroid _ hc hpos.ne').1 hpos
      (by rw [te]; exact harea)
    rw [te] at r
    refine r.trans (le_of_eq ?_)
    have e : |surfaceVolume pts| / getArea2d pts = 2 * Real.pi * |(getCentroid2d pts).1| := by
      unfold surfaceVolume
      rw [abs_mul, abs_mul, abs_of_pos hpos, abs_of_pos (by positivity : (0 : ℝ) < 2 * Real.pi)]
      field_simp
    rw [e]
    ring

/-- C103.  A list of requests gives the list of the volumes each request alone gives, in order. -/
theorem C103_volume_many (p : Parameterisation) (l' : LCFSInfo ℝ) (n : ℕ) (ps vs : List ℝ) :
    paramVolumeR A G D pi p l' n (.many ps) = .ok (.many vs) ↔
      List.Forall₂ (fun q x => paramVolumeR A G D pi p l' n (.one q) = .ok (.one x)) ps vs := by
  have h1 : paramVolumeR A G D pi p l' n (.many ps) = .ok (.many vs) ↔
      ps.mapM (fun q => (fluxSurfaceR A G pi p l' q n).map (surfaceVolumeR A D pi)) = .ok vs := by
    have h2 : ∀ qs : List ℝ, qs.mapM (fun q => (fluxSurfaceR A G pi p l' q n).map (surfaceVolumeR A D pi)) =
        (qs.mapM (fun q => fluxSurfaceR A G pi p l' q n)).map (List.map (surfaceVolumeR A D pi)) := by
      intro qs
      induction qs with
      | nil => rfl
      | cons q qs ih =>
        rw [List.mapM_cons, List.mapM_cons, ih]
        cases fluxSurfaceR A G pi p l' q n with
        | error e => rfl
        | ok f => cases qs.mapM (fun p_1 => fluxSurfaceR A G pi p l' p_1 n) <;> rfl
    rw [h2]
    simp only [paramVolumeR]
    cases h : ps.mapM (fun q => fluxSurfaceR A G pi p l' q n) with
    | error e => simp [Bind.bind, Except.bind, Except.map]
    | ok g => simp [Bind.bind, Except.bind, Pure.pure, Except.pure, Except.map]
  rw [h1, mapM_ok_iff]
  have h3 : ∀ q x, ((fluxSurfaceR A G pi p l' q n).map (surfaceVolumeR A D pi) = .ok x) ↔
      paramVolumeR A G D pi p l' n (.one q) = .ok (.one x) := by
    intro q x
    simp only [paramVolumeR]
    cases fluxSurfaceR A G pi p l' q n with
    | error e => simp [Bind.bind, Except.bind, Except.map]
    | ok f => simp [Bind.bind, Except.bind, Pure.pure, Except.pure, Except.map]
  simp only [h3]

end

/-- C103.  In double precision, with `sin` and `cos` right to four roundings and up to 1000 points per surface: the volume of every
flux surface of more than `1.2·10⁻¹¹ n E²` of area, `E` the size of the plasma. -/
theorem C103_binary64 {G : TrigLib} {D : DotLib} (hG : AccurateTrig G (4 * (2 : ℝ) ^ (-53 : ℤ)))
    (hD : AccurateDot D ((2 : ℝ) ^ (-53 : ℤ))) {r0 z0 aspect kappa delta shift sq : ℝ} {l l' : LCFSInfo ℝ}
    (hl : LCFSInfo.make r0 z0 aspect kappa delta shift sq = .ok l)
    (hl' : LCFSInfo.makeR binary64 r0 z0 aspect kappa delta shift sq = .ok l') (p : Parameterisation) {n : ℕ} (hn : 2 ≤ n)
    (hn' : n ≤ 1000) (hE : extent l 1 ≤ 45) (psi : ℝ) (hpsi : |psi| ≤ 1) (surface : Surface ℝ) (vol : ℝ)
    (hs : (FluxInterp.param p l n).getFluxSurface (.one psi) none = .ok (.one surface))
    (hvol : (FluxInterp.param p l n).volume (.one psi) = .ok (.one vol)) (hpos : 0 < surface.area)
    (harea : 1.2 / 10 ^ 11 * (n * extent l 1 ^ 2) ≤ surface.area) :
    ∃ vol', paramVolumeR binary64 G D (round53 Real.pi) p l' n (.one psi) = .ok (.one vol') ∧
      |vol' - vol| ≤ 2.4 / 10 ^ 12 * (n * extent l 1 ^ 2) * (2 * Real.pi * extent l 1 + |vol| / surface.area) := by
  have v1 : 50 * (4 * (2 : ℝ) ^ (-53 : ℤ)) * 45 ≤ 1 / 10 ^ 12 := by norm_num
  have n1 : (n : ℝ) ≤ 1000 := by exact_mod_cast hn'
  obtain ⟨vol', a, b⟩ := C103_param_volume (w := 1.2 / 10 ^ 13) C74_binary64 hG hD (by norm_num) np_pi hl hl' p hn
    ((mul_le_mul_of_nonneg_left hE (by positivity)).trans v1) psi hpsi (by norm_num)
    ((mul_le_mul_of_nonneg_right n1 (by positivity)).trans (by norm_num)) (by norm_num) surface vol hs hvol hpos
    (le_trans (le_of_eq (by rw [show (1.2 / 10 ^ 11 : ℝ) = 100 * (1.2 / 10 ^ 13) by norm_num]; ring)) harea)
  refine ⟨vol', a, b.trans (le_of_eq ?_)⟩
  rw [show (2.4 / 10 ^ 12 : ℝ) = 20 * (1.2 / 10 ^ 13) by norm_num]
  ring

/-! ### The hypotheses are met -/

namespace Ex

theorem diamond_closed : ExactlyClosed diamond := ⟨by simp [diamond], by simp [diamond]⟩

theorem diamond_sizes : getArea2d diamond = 2 ∧ (getCentroid2d diamond).1 = 3 := by
  have a : getArea2d diamond = 2 := by
    rw [C45_area _ diamond_closed]
    simp only [diamond, contour, seg_x]
    norm_num
  refine ⟨a, ?_⟩
  rw [(C45_centroid _ diamond_closed (by rw [a]; norm_num)).1]
  simp only [diamond, contour, seg_x, seg_xx]
  norm_num

/-- The volume of the small circular plasma with four edges, `12 π`, computed in double precision from its parameters. -/
example : ∃ vol', paramVolumeR binary64 roundedTrig (leftDot round53) (round53 Real.pi) .fausser circle 5 (.one 1) = .ok (.one vol') ∧
    |vol' - 12 * Real.pi| ≤ 1 / 10 ^ 8 := by
  have hs : (FluxInterp.param .fausser circle 5).surface 1 none = .ok (.closed diamond) := by
    simp [FluxInterp.surface, circle_points, Bind.bind, Except.bind, Pure.pure, Except.pure]
  have hv : (FluxInterp.param .fausser circle 5).volume (.one 1) = .ok (.one (12 * Real.pi)) := by
    rw [volume_one, hs]
    simp only [Except.map, Except.ok.injEq, PsiResult.one.injEq, Surface.volume, surfaceVolume, diamond_sizes.1, diamond_sizes.2]
    ring
  obtain ⟨vol', a, b⟩ := C103_binary64 accurate_trigs.2 dot_binary64 circle_made circle_madeR .fausser (n := 5) (by norm_num)
    (by norm_num) (by rw [circle_extent]; norm_num) 1 (by norm_num) (.closed diamond) (12 * Real.pi) ((getOne_iff _ _ _ _).2 hs) hv
    (by simp only [Surface.area, diamond_sizes.1]; norm_num)
    (by simp only [Surface.area, diamond_sizes.1, circle_extent]; norm_num)
  refine ⟨vol', a, b.trans ?_⟩
  simp only [Surface.area, diamond_sizes.1, circle_extent]
  have := Real.pi_pos
  have := Real.pi_lt_d2
  rw [abs_of_pos (by positivity)]
  norm_num
  nlinarith

end Ex
end
end TNS
