import Verif.Props.RoundedFluxClosed
import Verif.Props.RoundedProfileOrder
/-
C101: the closure test has an absolute tolerance; surfaces that are too large fail it.
-/

set_option autoImplicit false

namespace TNS
open Spec
noncomputable section

theorem round53_at {x : ℝ} {k m : ℤ} (hx : Int.log 2 |x| = k + 52) (h1 : (m : ℝ) - 1 / 2 < x / (2 : ℝ) ^ k)
    (h2 : x / (2 : ℝ) ^ k < m + 1 / 2) : round53 x = m * (2 : ℝ) ^ k := by
  unfold round53
  rw [hx, show k + 52 - 52 = k by ring]
  have : round (x / (2 : ℝ) ^ k) = m := by
    rw [round_eq, Int.floor_eq_iff]
    constructor <;> linarith
  rw [this]

/-- `np.pi`. -/
theorem round53_pi : round53 Real.pi = 7074237752028440 / 2 ^ 51 := by
  have a := Real.pi_gt_d20
  have b := Real.pi_lt_d20
  have hl : Int.log 2 |Real.pi| = -51 + 52 := by
    rw [abs_of_pos Real.pi_pos]
    apply le_antisymm
    · have : Int.log 2 Real.pi < 2 := by
        rw [← Int.lt_zpow_iff_log_lt (by norm_num) Real.pi_pos]; norm_num; linarith
      omega
    · rw [← Int.zpow_le_iff_le_log (by norm_num) Real.pi_pos]; norm_num; linarith
  rw [round53_at (k := -51) (m := 7074237752028440) hl]
  · rw [zpow_neg]; norm_num
  · rw [zpow_neg, div_inv_eq_mul]; norm_num; linarith
  · rw [zpow_neg, div_inv_eq_mul]; norm_num; linarith

/-- `2 * np.pi`. -/
theorem round53_two_pi : round53 (2 * round53 Real.pi) = 7074237752028440 / 2 ^ 50 := by
  have hl : Int.log 2 |2 * round53 Real.pi| = -50 + 52 := by
    rw [round53_pi, abs_of_pos (by norm_num)]
    apply le_antisymm
    · have : Int.log 2 ((2 : ℝ) * (7074237752028440 / 2 ^ 51)) < 3 := by
        rw [← Int.lt_zpow_iff_log_lt (by norm_num) (by norm_num)]; norm_num
      omega
    · rw [← Int.zpow_le_iff_le_log (by norm_num) (by norm_num)]; norm_num
  rw [round53_at (k := -50) (m := 7074237752028440) hl]
  · rw [zpow_neg]; norm_num
  · rw [round53_pi, zpow_neg, div_inv_eq_mul]; norm_num
  · rw [round53_pi, zpow_neg, div_inv_eq_mul]; norm_num

/-- The sine of `2 * np.pi` is not 0. -/
theorem sin_two_np_pi : 2.44 / 10 ^ 16 ≤ |Real.sin (round53 (2 * round53 Real.pi))| := by
  have a := Real.pi_gt_d20
  have b := Real.pi_lt_d20
  rw [round53_two_pi]
  set t : ℝ := 7074237752028440 / 2 ^ 50 with ht
  have d1 : 2.449 / 10 ^ 16 ≤ 2 * Real.pi - t := by rw [ht]; norm_num at a ⊢; linarith
  have d2 : 2 * Real.pi - t ≤ 2.45 / 10 ^ 16 := by rw [ht]; norm_num at b ⊢; linarith
  set d := 2 * Real.pi - t with hd
  have e : Real.sin t = -Real.sin d := by
    rw [show t = 2 * Real.pi - d by rw [hd]; ring, Real.sin_two_pi_sub]
  rw [e, abs_neg]
  have d0 : 0 < d := by linarith [show (0 : ℝ) < 2.449 / 10 ^ 16 by norm_num]
  have hs := Real.sin_gt_sub_cube d0
  have c : d ^ 3 ≤ d * (1 / 10 ^ 10) := by
    rw [show d ^ 3 = d * d ^ 2 by ring]
    refine mul_le_mul_of_nonneg_left ?_ d0.le
    have : d ^ 2 ≤ (2.45 / 10 ^ 16) ^ 2 := pow_le_pow_left₀ d0.le d2 2
    exact this.trans (by norm_num)
  refine le_trans ?_ (le_abs_self _)
  have : d - d * (1 / 10 ^ 10) / 4 ≤ Real.sin d := by linarith
  have k : 2.44 / 10 ^ 16 ≤ d - d * (1 / 10 ^ 10) / 4 := by
    have : d - d * (1 / 10 ^ 10) / 4 = d * (1 - 1 / 10 ^ 10 / 4) := by ring
    rw [this]
    refine le_trans ?_ (mul_le_mul_of_nonneg_right d1 (by norm_num))
    norm_num
  linarith

theorem rd_lower {A : Arith} {u : ℝ} (hA : StandardModel A u) (hu : u ≤ 1 / 10 ^ 6) {x c : ℝ} (h : c ≤ |x|) :
    (1 - 1 / 10 ^ 6) * c ≤ |A.rd x| := by
  have r := hA.rel x
  have t : |x| - |A.rd x| ≤ |A.rd x - x| := by rw [abs_sub_comm]; exact abs_sub_abs_le_abs_sub _ _
  have m : u * |x| ≤ 1 / 10 ^ 6 * |x| := mul_le_mul_of_nonneg_right hu (abs_nonneg _)
  nlinarith [abs_nonneg x]

/-- C101.  In double precision a Fausser surface centred on the mid-plane whose minor radius times elongation is 4200 or
more (a tokamak given in millimetres) is refused: "This is not a closed flux surface". -/
theorem C101_rejects {G : TrigLib} (hG : AccurateTrig G (4 * (2 : ℝ) ^ (-53 : ℤ)))
    {r0 aspect kappa delta shift sq : ℝ} {l : LCFSInfo ℝ}
    (hl : LCFSInfo.make r0 0 aspect kappa delta shift sq = .ok l) {psi : ℝ} {n : ℕ} (hn : 2 ≤ n)
    (hbig : 4200 ≤ psi * (r0 / aspect) * kappa) :
    fluxSurfaceR binary64 G (round53 Real.pi) .fausser { l with minor := round53 (r0 / aspect) } psi n =
      .error .fluxSurfaceError := by
  have hA := C74_binary64
  have h53 : (2 : ℝ) ^ (-53 : ℤ) ≤ 1 / 10 ^ 7 := by
    rw [zpow_neg, show ((2 : ℝ) ^ (53 : ℤ)) = 2 ^ 53 by norm_cast]; norm_num
  have hu : (2 : ℝ) ^ (-53 : ℤ) ≤ 1 / 10 ^ 6 := h53.trans (by norm_num)
  obtain ⟨h1, h2, h3, h4, h5⟩ := (C39_accepted r0 0 aspect kappa delta shift sq).1 ⟨l, hl⟩
  obtain ⟨⟨e1, e2, e3, e4, e5, e6, e7⟩, em, -, -, hs, -⟩ := C39_stored r0 0 aspect kappa delta shift sq l hl
  set l' : LCFSInfo ℝ := { l with minor := round53 (r0 / aspect) } with hl'
  have f1 : l'.r0 = r0 := e1
  have f2 : l'.z0 = 0 := e2
  have f3 : l'.aspect = aspect := e3
  have f4 : l'.kappa = kappa := e4
  obtain ⟨a1, a2⟩ := anglesR_ends (A := binary64) (pi := round53 Real.pi) hn
  have z0 : (fausserPointR binary64 G l' psi 0).2 = 0 := by
    unfold fausserPointR
    simp only [f2, sin_zero_lib hG, mul_zero, add_zero, rd_zero' hA]
  have zn : 1.01 / 10 ^ 12 ≤ |binary64.rd ((fausserPointR binary64 G l' psi 0).2 -
      (fausserPointR binary64 G l' psi (binary64.rd (2 * round53 Real.pi))).2)| := by
    rw [z0]
    unfold fausserPointR
    simp only [f1, f2, f3, f4]
    have ap : 0 < aspect := by linarith
    have hbig' : 4200 * aspect ≤ |psi * r0| * kappa := by
      have : psi * (r0 / aspect) * kappa * aspect = psi * r0 * kappa := by field_simp
      have k1 : 4200 * aspect ≤ psi * r0 * kappa := by rw [← this]; exact mul_le_mul_of_nonneg_right hbig ap.le
      exact k1.trans (mul_le_mul_of_nonneg_right (le_abs_self _) (by linarith))
    have s1 := rd_lower hA hu (le_refl |psi * r0|)
    have s2 := rd_lower hA hu (x := binary64.rd (psi * r0) / aspect) (c := (1 - 1 / 10 ^ 6) * |psi * r0| / aspect) (by
      rw [abs_div, abs_of_pos ap]; exact div_le_div_of_nonneg_right s1 ap.le)
    have s3 := rd_lower hA hu (x := binary64.rd (binary64.rd (psi * r0) / aspect) * kappa)
      (c := (1 - 1 / 10 ^ 6) ^ 2 * 4200) (by
      rw [abs_mul, abs_of_pos (show 0 < kappa by linarith)]
      refine le_trans ?_ (mul_le_mul_of_nonneg_right s2 (by linarith))
      rw [show (1 - 1 / 10 ^ 6) * ((1 - 1 / 10 ^ 6) * |psi * r0| / aspect) * kappa =
        (1 - 1 / 10 ^ 6) ^ 2 * (|psi * r0| * kappa / aspect) by ring]
      exact mul_le_mul_of_nonneg_left ((le_div_iff₀ ap).2 hbig') (by norm_num))
    have g : (1 - 1 / 10 ^ 6) * (2.44 / 10 ^ 16) ≤ |G.sin (binary64.rd (2 * round53 Real.pi))| := by
      have k := hG.sin (binary64.rd (2 * round53 Real.pi))
      have k1 : 2.44 / 10 ^ 16 ≤ |Real.sin (binary64.rd (2 * round53 Real.pi))| := sin_two_np_pi
      set s := Real.sin (binary64.rd (2 * round53 Real.pi))
      set s' := G.sin (binary64.rd (2 * round53 Real.pi))
      have t : |s| - |s'| ≤ |s' - s| := by rw [abs_sub_comm]; exact abs_sub_abs_le_abs_sub _ _
      have m : 4 * (2 : ℝ) ^ (-53 : ℤ) * |s| ≤ 1 / 10 ^ 6 * |s| :=
        mul_le_mul_of_nonneg_right (by linarith) (abs_nonneg _)
      have km := k.trans m
      have k2 := mul_le_mul_of_nonneg_left k1 (show (0 : ℝ) ≤ 1 - 1 / 10 ^ 6 by norm_num)
      linarith
    have s4 := rd_lower hA hu (x := binary64.rd (binary64.rd (binary64.rd (psi * r0) / aspect) * kappa) *
      G.sin (binary64.rd (2 * round53 Real.pi))) (c := (1 - 1 / 10 ^ 6) ^ 4 * (4200 * (2.44 / 10 ^ 16))) (by
      rw [abs_mul]
      refine le_trans (le_of_eq ?_) (mul_le_mul s3 g (by norm_num) (abs_nonneg _))
      ring)
    have s5 := rd_lower hA hu (x := 0 + binary64.rd (binary64.rd (binary64.rd (binary64.rd (psi * r0) / aspect) * kappa) *
      G.sin (binary64.rd (2 * round53 Real.pi)))) (s4.trans (by rw [zero_add]))
    have s6 := rd_lower hA hu (x := 0 - binary64.rd (0 + binary64.rd (binary64.rd (binary64.rd (binary64.rd (psi * r0) /
      aspect) * kappa) * G.sin (binary64.rd (2 * round53 Real.pi))))) (s5.trans (by rw [zero_sub, abs_neg]))
    refine le_trans ?_ s6
    norm_num
  have tol : binary64.rd (closedTol : ℝ) < 1.01 / 10 ^ 12 := by
    have r := hA.rel (closedTol : ℝ)
    have c0 : (0 : ℝ) < closedTol := by unfold closedTol; positivity
    rw [abs_of_pos c0] at r
    have k : (2 : ℝ) ^ (-53 : ℤ) * (closedTol : ℝ) ≤ 1 / 10 ^ 6 * closedTol := mul_le_mul_of_nonneg_right hu c0.le
    have := (abs_le.1 r).2
    have e : (closedTol : ℝ) = 1 / 10 ^ 12 := rfl
    rw [e] at this k ⊢
    refine lt_of_le_of_lt (show _ ≤ (1 + 1 / 10 ^ 6) * (1 / 10 ^ 12 : ℝ) by linarith) (by norm_num)
  unfold fluxSurfaceR makeClosedR isClosedR
  rw [List.head?_map, List.getLast?_map, a1, a2]
  simp only [Option.map_some, Parameterisation.pointR]
  rw [decide_eq_false (p := |binary64.rd ((fausserPointR binary64 G l' psi 0).2 -
      (fausserPointR binary64 G l' psi (binary64.rd (2 * round53 Real.pi))).2)| ≤ binary64.rd closedTol) (by
    push Not; linarith)]
  simp [Bind.bind, Except.bind]

/-- The parameters of a tokamak of 9 m, in millimetres. -/
example : ∃ l, LCFSInfo.make (9000 : ℝ) 0 3 1.7 0.3 0 0 = .ok l ∧ (4200 : ℝ) ≤ 1 * (9000 / 3) * 1.7 := by
  refine ⟨_, by unfold LCFSInfo.make; norm_num; rfl, by norm_num⟩

end
end TNS
