import Verif.Props.RoundedFlux
import Verif.Props.RoundedReactivity
/-
C101: parameterised flux surfaces in floating point: acceptance of the parameters, points, closure.
-/

set_option autoImplicit false

namespace TNS
open Spec
noncomputable section

section
variable {A : Arith} {F : MathLib} {G : TrigLib} {u v pi : ℝ}

/-- C101.  Rounding can change the verdict on a parameter set only if the shift is within one rounding of the minor
radius; the parameters are stored as given and the minor radius is right to one rounding. -/
theorem C101_parameters (hA : StandardModel A u) (r0 z0 aspect kappa delta shift sq : ℝ) :
    (|shift| < (1 - u) * (r0 / aspect) → ∀ l, LCFSInfo.make r0 z0 aspect kappa delta shift sq = .ok l →
      LCFSInfo.makeR A r0 z0 aspect kappa delta shift sq = .ok { l with minor := A.rd (r0 / aspect) }) ∧
    (∀ l', LCFSInfo.makeR A r0 z0 aspect kappa delta shift sq = .ok l' →
      |l'.minor - r0 / aspect| ≤ u * (r0 / aspect) ∧
      (|shift| < r0 / aspect →
        LCFSInfo.make r0 z0 aspect kappa delta shift sq = .ok { l' with minor := r0 / aspect }) ∧
      |shift| < (1 + u) * (r0 / aspect)) := by
  have hr := hA.rel (r0 / aspect)
  constructor
  · intro hs l hl
    obtain ⟨h1, h2, h3, h4, h5⟩ := (C39_accepted r0 z0 aspect kappa delta shift sq).1 ⟨l, hl⟩
    rw [abs_le] at h4
    unfold LCFSInfo.make at hl
    rw [if_neg (not_le.2 h1), if_neg (not_le.2 h2), if_neg (not_lt.2 h3), if_neg (not_not.2 h4)] at hl
    simp only [ge_iff_le] at hl
    rw [if_neg (not_le.2 h5)] at hl
    obtain rfl := (by simpa using hl : _ = l)
    have q : 0 < r0 / aspect := div_pos h1 (by linarith)
    rw [abs_of_pos q] at hr
    have := (abs_le.1 hr).1
    unfold LCFSInfo.makeR
    rw [if_neg (not_le.2 h1), if_neg (not_le.2 h2), if_neg (not_lt.2 h3), if_neg (not_not.2 h4)]
    simp only [ge_iff_le]
    rw [if_neg (not_le.2 (by linarith))]
  · intro l' hl
    unfold LCFSInfo.makeR at hl
    split_ifs at hl with h1 h2 h3 h4
    simp only at hl
    split_ifs at hl with h5
    obtain rfl := (by simpa using hl : _ = l')
    have q : 0 < r0 / aspect := div_pos (by linarith) (by linarith)
    rw [abs_of_pos q] at hr
    refine ⟨hr, fun hs => ?_, by linarith [(abs_le.1 hr).2]⟩
    unfold LCFSInfo.make
    rw [if_neg h1, if_neg h2, if_neg h3, if_neg (not_not.2 h4)]
    simp only [ge_iff_le]
    rw [if_neg (not_le.2 hs)]

theorem extent_bounds {l : LCFSInfo ℝ} (hr : 0 < l.r0) (ha : 1 < l.aspect) (hk : 1 ≤ l.kappa) (hs : 0 ≤ l.shift) (psi : ℝ) :
    |l.r0| + |psi * (l.r0 / l.aspect)| + |l.shift| * (1 + psi ^ 2) ≤ extent l psi ∧
    |l.r0| + |psi * (l.r0 / l.aspect)| + |l.squareness| ≤ extent l psi ∧
    |l.z0| + |psi * (l.r0 / l.aspect)| * |l.kappa| * (1 + |l.squareness|) ≤ extent l psi ∧
    |l.z0| + |psi * (l.r0 / l.aspect)| * |l.kappa| ≤ extent l psi := by
  have q : 0 ≤ l.r0 / l.aspect := div_nonneg hr.le (by linarith)
  have e : |psi * (l.r0 / l.aspect)| = |psi| * (l.r0 / l.aspect) := by rw [abs_mul, abs_of_nonneg q]
  have p0 : 0 ≤ |psi| * (l.r0 / l.aspect) := by positivity
  have s0 := abs_nonneg l.squareness
  have z0 := abs_nonneg l.z0
  have t0 : 0 ≤ l.shift * (1 + psi ^ 2) := by positivity
  have p1 : |psi| * (l.r0 / l.aspect) ≤ |psi| * (l.r0 / l.aspect) * l.kappa := le_mul_of_one_le_right p0 hk
  have p2 : |psi| * (l.r0 / l.aspect) * l.kappa ≤ |psi| * (l.r0 / l.aspect) * l.kappa * (1 + |l.squareness|) :=
    le_mul_of_one_le_right (p0.trans p1) (by linarith)
  rw [e, abs_of_pos hr, abs_of_nonneg hs, abs_of_nonneg (zero_le_one.trans hk)]
  unfold extent
  refine ⟨by linarith, by linarith, by linarith, by linarith⟩

/-- C101.  The points computed for a flux surface are those of the formulas, up to `110 v` times the size of the surface:
every accepted parameter set, both parameterisations, every flux label and number of points. -/
theorem C101_points (hA : StandardModel A u) (hG : AccurateTrig G v) (huv : u ≤ v) (hv : v ≤ 1 / 10 ^ 5)
    (hpi : |pi - Real.pi| ≤ u * Real.pi) {r0 z0 aspect kappa delta shift sq : ℝ} {l : LCFSInfo ℝ}
    (hl : LCFSInfo.make r0 z0 aspect kappa delta shift sq = .ok l) (p : Parameterisation) (psi : ℝ) {n : ℕ} (hn : 2 ≤ n) :
    ∃ pts, fluxSurface p l psi n = .ok pts ∧
      ∀ pts', fluxSurfaceR A G pi p { l with minor := A.rd (r0 / aspect) } psi n = .ok pts' →
        List.Forall₂ (CloseTo (110 * v * extent l psi)) pts' pts := by
  have v0 := hA.u_nonneg.trans huv
  obtain ⟨h1, h2, h3, h4, h5⟩ := (C39_accepted r0 z0 aspect kappa delta shift sq).1 ⟨l, hl⟩
  obtain ⟨⟨e1, e2, e3, e4, e5, e6, e7⟩, em, -, -, hs, -⟩ := C39_stored r0 z0 aspect kappa delta shift sq l hl
  have hd : |l.delta| ≤ 1 := by rw [e5]; exact h4
  obtain ⟨b1, b2, b3, b4⟩ := extent_bounds (l := l) (by rw [e1]; exact h1) (by rw [e3]; exact h2) (by rw [e4]; exact h3) hs psi
  obtain ⟨pts, hp⟩ : ∃ pts, fluxSurface p l psi n = .ok pts := by
    obtain ⟨s, hs, -⟩ := C42_closed p l psi n (by omega)
    exact ⟨s, hs⟩
  refine ⟨pts, hp, fun pts' hp' => ?_⟩
  have ep := fluxSurface_eq p l psi n pts hp
  have ep' : pts' = (anglesR A pi n).map (p.pointR A G { l with minor := A.rd (r0 / aspect) } psi) := by
    unfold fluxSurfaceR makeClosedR at hp'
    simp only [Bind.bind, Except.bind] at hp'
    split at hp'
    · cases hp'
    · split_ifs at hp'
      exact (Except.ok.inj hp').symm
  rw [ep, ep']
  unfold anglesR angles
  rw [if_neg (by omega), List.map_map, List.map_map, List.forall₂_map_left_iff, List.forall₂_map_right_iff, List.forall₂_same]
  intro i hi
  have W := angle_within hA huv hv hpi hn (List.mem_range.1 hi)
  have fin : ∀ {e M x' x : ℝ}, MagErr v e M x' x → 0 ≤ e → e ≤ 110 → M ≤ extent l psi →
      |x' - x| ≤ 110 * v * extent l psi := by
    intro e M x' x h he0 he hM
    have := (h.weaken he hM (by norm_num) v0).err
    linarith
  cases p with
  | fausser =>
    obtain ⟨c1, c2⟩ := fausser_within hA hG huv hv (l := { l with minor := A.rd (r0 / aspect) }) hd psi W
    exact ⟨fin c1 (by norm_num) (by norm_num) b1, fin c2 (by norm_num) (by norm_num) b4⟩
  | sauter =>
    obtain ⟨c1, c2⟩ := sauter_within hA hG huv hv (l := l) (l' := { l with minor := A.rd (r0 / aspect) })
      (by rw [em, e1, e3]) (by rw [e1, e3]) hd psi W
    exact ⟨fin c1 (by norm_num) (by norm_num) b2, fin c2 (by norm_num) (by norm_num) b3⟩

end
end
end TNS
