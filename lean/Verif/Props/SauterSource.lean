import Verif.Props.FausserSdef
/-
C66 and C25 for Sauter plasmas without squareness.
-/

set_option autoImplicit false

namespace TNS
open Spec
noncomputable section

/-- Without squareness a Sauter surface is the Fausser surface of the same plasma without Shafranov
shift. -/
theorem sauter_surface (l l' : LCFSInfo ℝ) (hs : l.squareness = 0) (hm : l.minor = l.r0 / l.aspect)
    (h : l' = { l with shift := 0 }) (psi : ℝ) (n : ℕ) :
    fluxSurface .sauter l psi n = fluxSurface .fausser l' psi n := by
  have e : sauterPoint l psi = fausserPoint l' psi := by
    funext al
    subst h
    simp only [sauterPoint, fausserPoint, hs, hm, abs_zero]
    refine Prod.ext ?_ ?_ <;> simp only [zero_mul, sub_zero, add_zero, mul_zero, one_pow, sub_self, one_mul] <;>
      ring
  simp only [fluxSurface, Parameterisation.point, e]

/-- Its last closed flux surface is the one of the Fausser plasma with the same parameters. -/
theorem lcfs_fausser (p : Parameterisation) (r0 z0 aspect kappa delta shift sq : ℝ) (l : LCFSInfo ℝ)
    (hp : p = .fausser ∨ sq = 0)
    (hl : LCFSInfo.make r0 z0 aspect kappa delta shift sq = .ok l) (n : ℕ) :
    fluxSurface p l 1 n = fluxSurface .fausser l 1 n := by
  obtain ⟨⟨e1, -, e3, -, -, e6, -⟩, em, -⟩ := C39_stored _ _ _ _ _ _ _ l hl
  rcases p with _ | _
  · rfl
  rcases hp with h | h
  · cases h
  have e : sauterPoint l 1 = fausserPoint l 1 := by
    funext al
    simp only [sauterPoint, fausserPoint, e6, h, em, e1, e3]
    refine Prod.ext ?_ ?_ <;> simp only [zero_mul, sub_zero, add_zero, mul_zero, one_pow, sub_self, one_mul] <;>
      ring
  simp only [fluxSurface, Parameterisation.point, e]

/-- C66.  Every flux surface of an accepted Sauter plasma without squareness, with any number of points
from 3 up, is a closed convex polygon traversed once, anticlockwise. -/
theorem C66_sauter_winds_once (r0 z0 aspect kappa delta shift : ℝ) (l : LCFSInfo ℝ)
    (hl : LCFSInfo.make r0 z0 aspect kappa delta shift 0 = .ok l) (psi : ℝ) (n : ℕ)
    (hn : 3 ≤ n) (pts : List (ℝ × ℝ)) (h : fluxSurface .sauter l psi n = .ok pts) :
    ExactlyClosed pts ∧ ConvexPolygon pts ∧ WindsOnce pts 1 := by
  obtain ⟨⟨e1, e2, e3, e4, e5, e6, e7⟩, em, -⟩ := C39_stored _ _ _ _ _ _ _ l hl
  have hacc := (C39_accepted r0 z0 aspect kappa delta shift 0).1 ⟨l, hl⟩
  obtain ⟨l', hl'⟩ := (C39_accepted r0 z0 aspect kappa delta 0 0).2
    ⟨hacc.1, hacc.2.1, hacc.2.2.1, hacc.2.2.2.1, by
      rw [abs_zero]; exact (abs_nonneg _).trans_lt hacc.2.2.2.2⟩
  obtain ⟨⟨f1, f2, f3, f4, f5, f6, f7⟩, fm, -⟩ := C39_stored _ _ _ _ _ _ _ l' hl'
  rw [sauter_surface l l' (by rw [e6]) (by rw [em, e1, e3]) ?_ psi n] at h
  · exact C66_winds_once _ _ _ _ _ _ _ l' hl' psi n hn pts h
  · cases l; cases l'
    simp only at *
    simp [*]

/-- C66.  The last closed flux surface of an accepted Sauter plasma without squareness contains the
magnetic axis (which is placed at the Shafranov shift although the surfaces are not shifted), the region
is convex, its sampling is never empty, and as the cells shrink their volumes add up to the reported
volume. -/
theorem C66_sauter (r0 z0 aspect kappa delta shift : ℝ) (l : LCFSInfo ℝ)
    (hl : LCFSInfo.make r0 z0 aspect kappa delta shift 0 = .ok l) (n : ℕ) (hn : 5 ≤ n)
    (pts : List (ℝ × ℝ)) (h : fluxSurface .sauter l 1 n = .ok pts) :
    containsPoint pts ((paramOPoint l).x, (paramOPoint l).z) = true ∧
    Convex ℝ {p | containsPoint pts p = true} ∧
    (∀ L : ℝ, 0 < L →
      ((paramOPoint l).x, (paramOPoint l).z) ∈ samplePoints (pts.map Prod.fst) (pts.map Prod.snd)
        (containsPoint pts) (paramOPoint l).x (paramOPoint l).z L) ∧
    Filter.Tendsto (fun L : ℝ => (sampleSpace2d Real.pi (pts.map Prod.fst) (pts.map Prod.snd)
      (containsPoint pts) (paramOPoint l).x (paramOPoint l).z L).dVolume.sum)
      (nhdsWithin 0 (Set.Ioi 0)) (nhds (surfaceVolume pts)) := by
  rw [lcfs_fausser .sauter _ _ _ _ _ _ _ l (.inr rfl) hl] at h
  exact ⟨C66_axis_inside _ _ _ _ _ _ _ l hl n hn pts h, C66_convex _ _ _ _ _ _ _ l hl n hn pts h,
    fun L hL => C66_never_empty _ _ _ _ _ _ _ l hl n hn pts h L hL,
    (C66_volume _ _ _ _ _ _ _ l hl n (by omega) pts h).1⟩

/-- C25.  For every accepted Sauter plasma without squareness, every cell side `L > 0` and every
non-negative source strength, the bins of the SDEF file are exactly the sampled cells. -/
theorem C25_sauter (r0 z0 aspect kappa delta shift : ℝ) (l : LCFSInfo ℝ)
    (hl : LCFSInfo.make r0 z0 aspect kappa delta shift 0 = .ok l) (n : ℕ) (hn : 5 ≤ n)
    (pts : List (ℝ × ℝ)) (h : fluxSurface .sauter l 1 n = .ok pts) (L : ℝ) (hL : 0 < L)
    (data : List ℝ)
    (hd : data.length = (samplePoints (pts.map Prod.fst) (pts.map Prod.snd) (containsPoint pts)
      (paramOPoint l).x (paramOPoint l).z L).length) (hpos : ∀ s ∈ data, 0 ≤ s) :
    let smp := sampleSpace2d Real.pi (pts.map Prod.fst) (pts.map Prod.snd) (containsPoint pts)
      (paramOPoint l).x (paramOPoint l).z L
    ∃ c, sdefCards smp.x smp.z L data = .ok c ∧ sdefBins c = cellBins smp.x smp.z L data := by
  rw [lcfs_fausser .sauter _ _ _ _ _ _ _ l (.inr rfl) hl] at h
  exact C25_fausser _ _ _ _ _ _ _ l hl n hn pts h L hL data hd hpos

/-- A Sauter plasma to which these apply. -/
example : ∃ l : LCFSInfo ℝ, ∃ pts, LCFSInfo.make 9 0 3 (17 / 10) (1 / 3) (1 / 2) 0 = .ok l ∧
    fluxSurface .sauter l 1 101 = .ok pts ∧
    containsPoint pts ((paramOPoint l).x, (paramOPoint l).z) = true := by
  obtain ⟨l, hl⟩ := (C39_accepted (9 : ℝ) 0 3 (17 / 10) (1 / 3) (1 / 2) 0).2
    (by norm_num)
  obtain ⟨s, hs, -⟩ := C42_closed .sauter l 1 101 (by norm_num)
  exact ⟨l, s, hl, hs, (C66_sauter _ _ _ _ _ _ l hl 101 (by norm_num) s hs).1⟩

end
end TNS
