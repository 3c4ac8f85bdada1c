import Verif.Props.RoundedFluxClosed
import Verif.Lemmas.MovedSample
import Verif.Props.FausserSource
/-
C101: the cells sampled in a parameterised plasma, from the parameters, in floating point.
-/

set_option autoImplicit false

namespace TNS
open Spec
noncomputable section

section
variable {A : Arith} {F : MathLib} {G : TrigLib} {u v pi : ℝ}

theorem made_both {r0 z0 aspect kappa delta shift sq : ℝ} {l l' : LCFSInfo ℝ}
    (hl : LCFSInfo.make r0 z0 aspect kappa delta shift sq = .ok l)
    (hl' : LCFSInfo.makeR A r0 z0 aspect kappa delta shift sq = .ok l') : l' = { l with minor := A.rd (r0 / aspect) } := by
  unfold LCFSInfo.make at hl
  unfold LCFSInfo.makeR at hl'
  split_ifs at hl hl' with h1 h2 h3 h4
  simp only at hl hl'
  split_ifs at hl hl'
  rw [← Except.ok.inj hl, ← Except.ok.inj hl']

/-- The points of the exact surface are bounded by its size. -/
theorem point_bound {r0 z0 aspect kappa delta shift sq : ℝ} {l : LCFSInfo ℝ}
    (hl : LCFSInfo.make r0 z0 aspect kappa delta shift sq = .ok l) (p : Parameterisation) (psi : ℝ) {n : ℕ}
    {pts : List (ℝ × ℝ)} (hp : fluxSurface p l psi n = .ok pts) :
    ∀ w ∈ pts, |w.1| ≤ extent l psi ∧ |w.2| ≤ extent l psi := by
  obtain ⟨h1, h2, h3, h4, h5⟩ := (C39_accepted r0 z0 aspect kappa delta shift sq).1 ⟨l, hl⟩
  obtain ⟨⟨e1, e2, e3, e4, e5, e6, e7⟩, em, -, -, hs, -⟩ := C39_stored r0 z0 aspect kappa delta shift sq l hl
  have hd : |l.delta| ≤ 1 := by rw [e5]; exact h4
  obtain ⟨b1, b2, b3, b4⟩ := extent_bounds (l := l) (by rw [e1]; exact h1) (by rw [e3]; exact h2) (by rw [e4]; exact h3) hs psi
  intro w hw
  rw [fluxSurface_eq p l psi n pts hp] at hw
  obtain ⟨al, -, rfl⟩ := List.mem_map.1 hw
  have c1 := Real.abs_cos_le_one (al + l.delta * Real.sin al)
  have c2 := Real.abs_sin_le_one al
  have c3 := Real.abs_sin_le_one (2 * al)
  have c4 := Real.abs_sin_le_one (al + l.squareness * Real.sin (2 * al))
  have m : ∀ a b : ℝ, |b| ≤ 1 → |a * b| ≤ |a| := fun a b hb => by
    rw [abs_mul]; exact mul_le_of_le_one_right (abs_nonneg _) hb
  cases p with
  | fausser =>
    simp only [Parameterisation.point, fausserPoint]
    constructor
    · refine le_trans ?_ b1
      refine (abs_add_le _ _).trans (add_le_add ((abs_add_le _ _).trans (add_le_add le_rfl ?_)) ?_)
      · refine (m _ _ c1).trans (le_of_eq (by congr 1; ring))
      · rw [abs_mul, abs_abs]
        refine mul_le_mul_of_nonneg_left ?_ (abs_nonneg _)
        rw [abs_le]; constructor <;> nlinarith [sq_nonneg psi]
    · refine le_trans ?_ b4
      refine (abs_add_le _ _).trans (add_le_add le_rfl ?_)
      refine (m _ _ c2).trans (le_of_eq ?_)
      rw [← abs_mul]; congr 1; ring
  | sauter =>
    simp only [Parameterisation.point, sauterPoint]
    rw [show l.minor = l.r0 / l.aspect by rw [em, e1, e3]]
    constructor
    · refine le_trans ?_ b2
      exact (abs_sub _ _).trans (add_le_add ((abs_add_le _ _).trans (add_le_add le_rfl (m _ _ c1))) (m _ _ c3))
    · refine le_trans ?_ b4
      refine (abs_add_le _ _).trans (add_le_add le_rfl ?_)
      refine (m _ _ c4).trans (le_of_eq ?_)
      rw [← abs_mul]; congr 1; ring

theorem fromParameterisationR_lcfs {p : Parameterisation} {l' : LCFSInfo ℝ} {rho : List ℝ} {n : ℕ} {conv : FluxConvention}
    {m' : ParamMap} (h : fromParameterisationR A F G pi p l' rho n conv = .ok m') :
    fluxSurfaceR A G pi p l' 1 n = .ok m'.lcfs ∧ m'.oPoint = paramOPointR A l' := by
  unfold fromParameterisationR at h
  simp only [Bind.bind, Except.bind] at h
  split at h
  · cases h
  · rename_i lcfs hlc
    split at h
    · cases h
    · split_ifs at h
      obtain rfl := Except.ok.inj h
      exact ⟨hlc, rfl⟩

variable {p : Parameterisation} {l l' : LCFSInfo ℝ} {rho : List ℝ} {n : ℕ} {conv : FluxConvention} {m' : ParamMap}
  {pts : List (ℝ × ℝ)} {L : ℝ}

theorem paramPlasma_moved (h : ParamPlasma A F G u v pi p l l' rho n conv m' pts L) :
    MovedPlasma A u pts m'.lcfs ((paramOPoint l).x, (paramOPoint l).z) (m'.oPoint.x, m'.oPoint.z)
      (110 * v * extent l 1) L (1.01 * extent l 1) := by
  have hA := h.arith
  have v0 := hA.u_nonneg.trans h.le
  obtain ⟨r0, z0, aspect, kappa, delta, shift, sq, hl, hl'⟩ := h.made
  have el := made_both hl hl'
  obtain ⟨h1, h2, h3, h4, h5⟩ := (C39_accepted r0 z0 aspect kappa delta shift sq).1 ⟨l, hl⟩
  obtain ⟨⟨e1, e2, e3, e4, e5, e6, e7⟩, em, -, -, hs, -⟩ := C39_stored r0 z0 aspect kappa delta shift sq l hl
  obtain ⟨b1, -⟩ := extent_bounds (l := l) (by rw [e1]; exact h1) (by rw [e3]; exact h2) (by rw [e4]; exact h3) hs 1
  obtain ⟨c1, c2⟩ := fromParameterisationR_lcfs h.computed
  obtain ⟨s, hs1, hs2, hs3, hs4⟩ := C42_closed p l 1 n (by have := h.points; omega)
  obtain rfl : s = pts := Except.ok.inj (hs1.symm.trans h.exact)
  obtain ⟨pts0, hp0, hnear⟩ := C101_points hA h.trig h.le h.small h.piErr hl p 1 (n := n) (by have := h.points; omega)
  obtain rfl : pts0 = s := Except.ok.inj (hp0.symm.trans h.exact)
  have pb := point_bound hl p 1 h.exact
  have E0 : 0 ≤ extent l 1 := by
    obtain ⟨w, hw⟩ : ∃ w, w ∈ pts0 := by
      have hn := h.points
      exact List.exists_mem_of_ne_nil _ (by intro e; rw [e] at hs2; simp at hs2; omega)
    exact (abs_nonneg _).trans (pb w hw).1
  have η1 : 110 * v * extent l 1 ≤ 0.01 * extent l 1 :=
    mul_le_mul_of_nonneg_right (by linarith [h.small]) E0
  have u1 := hA.u_lt_one
  refine ⟨hA.u_nonneg, (h.le.trans h.small).trans (by norm_num), hA.rel, ⟨?_, hs4.symm⟩, by rw [hs2]; exact h.points, ?_, ?_, ?_,
    h.axis, ?_, h.side, h.grid, h.vertices⟩
  · intro e
    have := h.points
    rw [e] at hs2
    simp at hs2
    omega
  · exact hnear _ (el ▸ c1)
  · rw [c2, el]
    refine ⟨?_, by simp [paramOPointR, paramOPoint]; positivity⟩
    simp only [paramOPointR, paramOPoint]
    have r := hA.rel (l.r0 + l.shift)
    have m1 : |l.r0 + l.shift| ≤ extent l 1 := by
      refine (abs_add_le _ _).trans (le_trans ?_ b1)
      have := abs_nonneg (1 * (l.r0 / l.aspect))
      have := abs_nonneg l.shift
      linarith
    have m2 : u * |l.r0 + l.shift| ≤ v * extent l 1 := mul_le_mul h.le m1 (abs_nonneg _) v0
    have : 0 ≤ v * extent l 1 := by positivity
    linarith
  · intro w hw
    have := pb w hw
    exact ⟨by linarith [this.1], by linarith [this.2]⟩
  · rw [show 2 * (110 * v * extent l 1) = 220 * v * extent l 1 by ring]
    exact h.axisFar

/-- C101.  Sampling a parameterised plasma in floating point, all the way from its parameters: every computed point is a point
of the exact lattice through the exact magnetic axis, up to `plasmaTol`, and that point is inside the exact last closed flux
surface unless the surface passes within twice that of it. -/
theorem C101_sampled (h : ParamPlasma A F G u v pi p l l' rho n conv m' pts L) (q : ℝ × ℝ)
    (hq : q ∈ samplePointsR A m'.lcfs m'.oPoint.x m'.oPoint.z L) :
    ∃ q', Lattice (paramOPoint l).x (paramOPoint l).z L q' ∧ CloseTo (plasmaTol u v l L) q q' ∧
      (containsPoint pts q' = true ∨ NearLine pts (2 * plasmaTol u v l L) q') := by
  have := (paramPlasma_moved h).sampled q hq
  rw [show 2 * plasmaTol u v l L = 2 * gridTol u (1.01 * extent l 1) L + 2 * (110 * v * extent l 1) by
    unfold plasmaTol; ring]
  exact this

/-- C101.  No cell is lost or doubled: every point of the exact lattice inside the exact last closed flux surface is sampled
exactly once, up to `plasmaTol`, unless the surface passes within twice that of it. -/
theorem C101_covered (h : ParamPlasma A F G u v pi p l l' rho n conv m' pts L) (q : ℝ × ℝ)
    (hq : Lattice (paramOPoint l).x (paramOPoint l).z L q) (hin : containsPoint pts q = true)
    (hfar : ¬ NearLine pts (2 * plasmaTol u v l L) q) :
    ∃! q', q' ∈ samplePointsR A m'.lcfs m'.oPoint.x m'.oPoint.z L ∧ CloseTo (plasmaTol u v l L) q' q := by
  refine (paramPlasma_moved h).covered q hq hin ?_
  rw [show 2 * gridTol u (1.01 * extent l 1) L + 2 * (110 * v * extent l 1) = 2 * plasmaTol u v l L by
    unfold plasmaTol; ring]
  exact hfar

/-- C101.  If the exact last closed flux surface passes within twice `plasmaTol` of no lattice point, the computed radii and
heights are the exact ones, cell by cell and in the same order. -/
theorem C101_same_cells (h : ParamPlasma A F G u v pi p l l' rho n conv m' pts L)
    (hfar : ∀ q, Lattice (paramOPoint l).x (paramOPoint l).z L q → ¬ NearLine pts (2 * plasmaTol u v l L) q) :
    let s := sampleSpace2dR A pi m'.lcfs m'.oPoint.x m'.oPoint.z L
    let e := sampleSpace2d Real.pi (pts.map Prod.fst) (pts.map Prod.snd) (containsPoint pts) (paramOPoint l).x (paramOPoint l).z L
    s.dVolume.length = s.x.length ∧
    List.Forall₂ (fun x x' => |x - x'| ≤ plasmaTol u v l L) s.x e.x ∧
    List.Forall₂ (fun z z' => |z - z'| ≤ plasmaTol u v l L) s.z e.z := by
  have hc := (paramPlasma_moved h).same_cells (by
    intro q hq
    rw [show 2 * gridTol u (1.01 * extent l 1) L + 2 * (110 * v * extent l 1) = 2 * plasmaTol u v l L by
      unfold plasmaTol; ring]
    exact hfar q hq)
  simp only [sampleSpace2dR, sampleSpace2d, List.forall₂_map_left_iff, List.forall₂_map_right_iff,
    List.length_map, true_and]
  exact ⟨hc.imp fun _ _ h => h.1, hc.imp fun _ _ h => h.2⟩

end
end
end TNS
