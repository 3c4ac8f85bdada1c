import Verif.Props.Flux
/-
Extents of the surfaces of the Sauter parameterisation (`flux.py` 371-385).
-/

set_option autoImplicit false

namespace TNS

/-- Point `i` of a computed surface. -/
theorem surface_get (p : Parameterisation) (l : LCFSInfo ℝ) (psi : ℝ) (n : ℕ) (hn : 2 ≤ n)
    (s : List (ℝ × ℝ)) (hs : fluxSurface p l psi n = .ok s) (i : ℕ) (hi : i < n) :
    s[i]? = some (p.point l psi (2 * Real.pi * ((i : ℝ) / ((n : ℝ) - 1)))) := by
  rw [fluxSurface_eq _ _ _ _ _ hs]
  unfold angles
  rw [if_neg (by omega)]
  simp [hi]

/-- C42.  A Sauter surface with `4 m + 1` points passes, a quarter of the points apart, through the
outboard mid-plane point at `r_0 + ψ a`, the top at `z_0 + κ ψ a`, the inboard mid-plane point at
`r_0 - ψ a` and the bottom at `z_0 - κ ψ a`; top and bottom are displaced inwards by
`ψ a sin δ`.  The squareness does not move these four points. -/
theorem C42_extremes (r0 z0 aspect kappa delta shift sq : ℝ) (l : LCFSInfo ℝ)
    (hl : LCFSInfo.make r0 z0 aspect kappa delta shift sq = .ok l) (psi : ℝ) (m : ℕ) (hm : 1 ≤ m)
    (s : List (ℝ × ℝ)) (hs : fluxSurface .sauter l psi (4 * m + 1) = .ok s) :
    s[0]? = some (r0 + psi * (r0 / aspect), z0) ∧
    s[m]? = some (r0 - psi * (r0 / aspect) * Real.sin delta, z0 + kappa * (psi * (r0 / aspect))) ∧
    s[2 * m]? = some (r0 - psi * (r0 / aspect), z0) ∧
    s[3 * m]? = some (r0 - psi * (r0 / aspect) * Real.sin delta,
      z0 - kappa * (psi * (r0 / aspect))) := by
  obtain ⟨⟨e1, e2, -, e4, e5, e6, -⟩, em, -⟩ := C39_stored _ _ _ _ _ _ _ l hl
  have hm0 : (m : ℝ) ≠ 0 := by
    have : m ≠ 0 := by omega
    exact_mod_cast this
  have g := fun i hi => surface_get .sauter l psi (4 * m + 1) (by omega) s hs i hi
  have hd : ((4 * m + 1 : ℕ) : ℝ) - 1 = 4 * m := by push_cast; ring
  have a1 : 2 * Real.pi * ((m : ℝ) / (4 * m)) = Real.pi / 2 := by field_simp; norm_num
  have a2 : 2 * Real.pi * (((2 * m : ℕ) : ℝ) / (4 * m)) = Real.pi := by
    push_cast; field_simp; norm_num
  have a3 : 2 * Real.pi * (((3 * m : ℕ) : ℝ) / (4 * m)) = Real.pi + Real.pi / 2 := by
    push_cast; field_simp; norm_num
  have s2 : Real.sin (2 * (Real.pi / 2)) = 0 := by
    rw [show 2 * (Real.pi / 2) = Real.pi by ring]; exact Real.sin_pi
  have s3 : Real.sin (2 * (Real.pi + Real.pi / 2)) = 0 := by
    rw [Real.sin_two_mul]; simp [Real.sin_add, Real.cos_add]
  have c2 : ∀ d : ℝ, Real.cos (Real.pi / 2 + d) = -Real.sin d := by
    intro d; rw [Real.cos_add]; simp
  have c3 : ∀ d : ℝ, Real.cos (Real.pi + Real.pi / 2 + d * Real.sin (Real.pi + Real.pi / 2)) =
      -Real.sin d := by
    intro d
    have : Real.sin (Real.pi + Real.pi / 2) = -1 := by simp [Real.sin_add]
    rw [this, Real.cos_add]
    simp [Real.sin_add, Real.cos_add]
  have s4 : Real.sin (Real.pi + Real.pi / 2) = -1 := by simp [Real.sin_add]
  refine ⟨?_, ?_, ?_, ?_⟩
  · rw [g 0 (by omega)]
    simp [Parameterisation.point, sauterPoint, e1, e2, em]
  · rw [g m (by omega), hd, a1]
    simp only [Parameterisation.point, sauterPoint, e1, e2, e4, e5, e6, em, s2, Real.sin_pi_div_two,
      mul_zero, add_zero, mul_one, c2, sub_zero]
    congr 2
    ring
  · rw [g (2 * m) (by omega), hd, a2]
    simp [Parameterisation.point, sauterPoint, e1, e2, em]
    ring
  · rw [g (3 * m) (by omega), hd, a3]
    simp only [Parameterisation.point, sauterPoint, e1, e2, e4, e5, e6, em, s3, c3, mul_zero,
      add_zero, sub_zero]
    rw [s4]
    congr 2 <;> ring

/-- C42.  Every point of a Sauter surface lies within `r_0 ± (ψ a + |ξ|)` and `z_0 ± κ ψ a`. -/
theorem C42_box (r0 z0 aspect kappa delta shift sq : ℝ) (l : LCFSInfo ℝ)
    (hl : LCFSInfo.make r0 z0 aspect kappa delta shift sq = .ok l) (psi : ℝ) (h0 : 0 ≤ psi) (n : ℕ)
    (s : List (ℝ × ℝ)) (hs : fluxSurface .sauter l psi n = .ok s) :
    ∀ p ∈ s, |p.1 - r0| ≤ psi * (r0 / aspect) + |sq| ∧ |p.2 - z0| ≤ kappa * (psi * (r0 / aspect)) := by
  obtain ⟨⟨e1, e2, -, e4, e5, e6, -⟩, em, ha, -⟩ := C39_stored _ _ _ _ _ _ _ l hl
  have acc := (C39_accepted r0 z0 aspect kappa delta shift sq).1 ⟨l, hl⟩
  have hk : 1 ≤ kappa := acc.2.2.1
  intro p hp
  rw [fluxSurface_eq _ _ _ _ _ hs] at hp
  obtain ⟨al, -, rfl⟩ := List.mem_map.1 hp
  have hA : 0 < r0 / aspect := div_pos acc.1 (by linarith [acc.2.1])
  have hpA : 0 ≤ psi * (r0 / aspect) := mul_nonneg h0 hA.le
  simp only [Parameterisation.point, sauterPoint, e1, e2, e4, e5, e6, em]
  constructor
  · rw [show r0 + psi * (r0 / aspect) * Real.cos (al + delta * Real.sin al) -
        sq * Real.sin (2 * al) - r0 = psi * (r0 / aspect) * Real.cos (al + delta * Real.sin al) -
        sq * Real.sin (2 * al) by ring]
    refine (abs_sub _ _).trans (add_le_add ?_ ?_)
    · rw [abs_mul, abs_of_nonneg hpA]
      exact mul_le_of_le_one_right hpA (Real.abs_cos_le_one _)
    · rw [abs_mul]
      exact mul_le_of_le_one_right (abs_nonneg _) (Real.abs_sin_le_one _)
  · rw [add_sub_cancel_left, abs_mul, abs_of_nonneg (mul_nonneg (by linarith) hpA)]
    exact mul_le_of_le_one_right (mul_nonneg (by linarith) hpA) (Real.abs_sin_le_one _)

/-- C42.  The mirror image at the mid-plane of a Sauter surface: point `n-1-i` has the opposite height
of point `i`, but its radius differs by twice the squareness term, so that the surface is up-down
symmetric point by point only without squareness. -/
theorem C42_mirror (l : LCFSInfo ℝ) (psi : ℝ) (n : ℕ) (hn : 2 ≤ n) (s : List (ℝ × ℝ))
    (hs : fluxSurface .sauter l psi n = .ok s) (i : ℕ) (hi : i < n) :
    ∃ p q, s[i]? = some p ∧ s[n - 1 - i]? = some q ∧ q.2 - l.z0 = -(p.2 - l.z0) ∧
      q.1 - p.1 = 2 * l.squareness * Real.sin (4 * Real.pi * ((i : ℝ) / ((n : ℝ) - 1))) := by
  refine ⟨_, _, surface_get .sauter l psi n hn s hs i hi,
    surface_get .sauter l psi n hn s hs (n - 1 - i) (by omega), ?_⟩
  have hn0 : (n : ℝ) - 1 ≠ 0 := by
    have : (2 : ℝ) ≤ n := by exact_mod_cast hn
    intro h0; linarith
  have ec : ((n - 1 - i : ℕ) : ℝ) = (n : ℝ) - 1 - i := by
    rw [Nat.sub_sub, Nat.cast_sub (by omega)]; push_cast; ring
  have e2 : 2 * Real.pi * (((n - 1 - i : ℕ) : ℝ) / ((n : ℝ) - 1)) =
      2 * Real.pi - 2 * Real.pi * ((i : ℝ) / ((n : ℝ) - 1)) := by
    rw [ec]; field_simp
  rw [e2, show 4 * Real.pi * ((i : ℝ) / ((n : ℝ) - 1)) =
    2 * (2 * Real.pi * ((i : ℝ) / ((n : ℝ) - 1))) by ring]
  generalize 2 * Real.pi * ((i : ℝ) / ((n : ℝ) - 1)) = al
  have h2 : Real.sin (2 * (2 * Real.pi - al)) = -Real.sin (2 * al) := by
    rw [Real.sin_two_mul, Real.sin_two_pi_sub, Real.cos_two_pi_sub, Real.sin_two_mul]; ring
  simp only [Parameterisation.point, sauterPoint, Real.sin_two_pi_sub, h2]
  rw [show 2 * Real.pi - al + l.delta * -Real.sin al =
      2 * Real.pi - (al + l.delta * Real.sin al) by ring, Real.cos_two_pi_sub,
    show 2 * Real.pi - al + l.squareness * -Real.sin (2 * al) =
      2 * Real.pi - (al + l.squareness * Real.sin (2 * al)) by ring, Real.sin_two_pi_sub]
  exact ⟨by ring, by ring⟩

/-- Witness: an accepted plasma with elongation and triangularity, 101 points; the top of its LCFS is
5.1 m above the mid-plane. -/
example : ∃ l s, LCFSInfo.make (9 : ℝ) 0 3 1.7 0.3 0 0.1 = .ok l ∧
    fluxSurface .sauter l 1 101 = .ok s ∧ ∃ p : ℝ × ℝ, s[25]? = some p ∧ p.2 = 5.1 := by
  obtain ⟨l, hl⟩ := (C39_accepted (9 : ℝ) 0 3 1.7 0.3 0 0.1).2 (by norm_num [abs_of_pos])
  obtain ⟨s, hs, -⟩ := C42_closed .sauter l 1 101 (by norm_num)
  exact ⟨l, s, hl, hs, _, (C42_extremes _ _ _ _ _ _ _ l hl 1 25 (by norm_num) s hs).2.1, by norm_num⟩

end TNS
