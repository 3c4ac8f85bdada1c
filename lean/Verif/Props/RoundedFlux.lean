import Verif.Lemmas.FluxErr
import Verif.Props.Flux
import Mathlib.Analysis.Real.Pi.Bounds
/-
C101: the points of parameterised flux surfaces in floating point.
-/

set_option autoImplicit false

namespace TNS
open Spec
noncomputable section

section
variable {A : Arith} {G : TrigLib} {u v pi : ℝ}

theorem angle_within (hA : StandardModel A u) (huv : u ≤ v) (hv : v ≤ 1 / 10 ^ 5) (hpi : |pi - Real.pi| ≤ u * Real.pi)
    {n i : ℕ} (hn : 2 ≤ n) (hi : i < n) :
    MagErr v 6.1 6.3 (angleR A pi n i) (2 * Real.pi * ((i : ℝ) / ((n : ℝ) - 1))) := by
  have v0 := hA.u_nonneg.trans huv
  have v1 : v ≤ 1 / 1000 := hv.trans (by norm_num)
  have pi0 := Real.pi_pos
  have pi1 := Real.pi_lt_d2
  have n1 : (0 : ℝ) < (n : ℝ) - 1 := by
    have : (2 : ℝ) ≤ n := by exact_mod_cast hn
    linarith
  have h0 : MagErr v 1 Real.pi pi Real.pi :=
    ⟨hpi.trans (by rw [one_mul, mul_comm]; exact mul_le_mul_of_nonneg_left huv pi0.le), by rw [abs_of_pos pi0]⟩
  have h1 : MagErr v 2.01 (2 * Real.pi) (A.rd (2 * pi)) (2 * Real.pi) :=
    (((MagErr.exact (v := v) (show |(2 : ℝ)| ≤ 2 by norm_num)).mul v0 v1 le_rfl zero_le_one h0).rd hA huv hv
      (by norm_num)).err_le (by norm_num) v0
  have q1 : (i : ℝ) / ((n : ℝ) - 1) ≤ 1 := by
    rw [div_le_one n1]
    have : (i : ℝ) + 1 ≤ n := by exact_mod_cast hi
    linarith
  have q0 : 0 ≤ (i : ℝ) / ((n : ℝ) - 1) := div_nonneg (Nat.cast_nonneg _) n1.le
  unfold angleR
  split_ifs with c1 c2
  · subst c1
    simp only [Nat.cast_zero, zero_div, mul_zero]
    exact (MagErr.exact (by norm_num)).err_le (by norm_num) v0
  · have : (i : ℝ) / ((n : ℝ) - 1) = 1 := by
      rw [div_eq_one_iff_eq n1.ne']
      have : (i : ℝ) + 1 = n := by exact_mod_cast c2
      linarith
    rw [this, mul_one]
    exact h1.weaken (by norm_num) (by linarith) (by norm_num) v0
  · have h2 := h1.rd hA huv hv (by norm_num)
    have inv : MagErr v 0 (1 / ((n : ℝ) - 1)) (1 / ((n : ℝ) - 1)) (1 / ((n : ℝ) - 1)) :=
      MagErr.exact (by rw [abs_of_pos (by positivity)])
    have h3 := (h2.mul v0 v1 (by norm_num) le_rfl inv).rd hA huv hv (by norm_num)
    have hi' : MagErr v 0 (i : ℝ) (i : ℝ) (i : ℝ) := MagErr.exact (by rw [abs_of_nonneg (Nat.cast_nonneg _)])
    have h4 := ((hi'.mul v0 v1 le_rfl (by norm_num) h3).rd hA huv hv (by norm_num)).rd hA huv hv (by norm_num)
    rw [sub_zero, add_zero, div_eq_mul_one_div (A.rd (A.rd (2 * pi))) ((n : ℝ) - 1)]
    rw [show 2 * Real.pi * ((i : ℝ) / ((n : ℝ) - 1)) = (i : ℝ) * (2 * Real.pi * (1 / ((n : ℝ) - 1))) by ring]
    refine h4.weaken (by norm_num) ?_ (by norm_num) v0
    rw [show (i : ℝ) * (2 * Real.pi * (1 / ((n : ℝ) - 1))) = 2 * Real.pi * ((i : ℝ) / ((n : ℝ) - 1)) by ring]
    nlinarith

/-- The minor radius times the flux label, computed either way. -/
theorem minor_within (hA : StandardModel A u) (huv : u ≤ v) (hv : v ≤ 1 / 10 ^ 5) (psi r0 aspect : ℝ) :
    MagErr v 2.1 |psi * (r0 / aspect)| (A.rd (A.rd (psi * r0) / aspect)) (psi * (r0 / aspect)) ∧
    MagErr v 2.1 |psi * (r0 / aspect)| (A.rd (psi * A.rd (r0 / aspect))) (psi * (r0 / aspect)) := by
  have v0 := hA.u_nonneg.trans huv
  have v1 : v ≤ 1 / 1000 := hv.trans (by norm_num)
  constructor
  · have h1 := (MagErr.exact (v := v) (le_refl |psi * r0|)).rd hA huv hv le_rfl
    have h2 := ((h1.mul v0 v1 (by norm_num) le_rfl (MagErr.exact (le_refl |1 / aspect|))).rd hA huv hv (by norm_num))
    rw [show psi * (r0 / aspect) = psi * r0 * (1 / aspect) by ring, div_eq_mul_one_div (A.rd (psi * r0)) aspect]
    exact h2.weaken (by norm_num) (by rw [abs_mul (psi * r0)]) (by norm_num) v0
  · have h1 := (MagErr.exact (v := v) (le_refl |r0 / aspect|)).rd hA huv hv le_rfl
    have h2 := (((MagErr.exact (le_refl |psi|)).mul v0 v1 le_rfl (by norm_num) h1).rd hA huv hv (by norm_num))
    exact h2.weaken (by norm_num) (by rw [abs_mul psi]) (by norm_num) v0

/-- `cos(α + δ sin α)`. -/
theorem cosine_within (hA : StandardModel A u) (hG : AccurateTrig G v) (huv : u ≤ v) (hv : v ≤ 1 / 10 ^ 5)
    {delta al al' : ℝ} (hd : |delta| ≤ 1) (h : MagErr v 6.1 6.3 al' al) :
    MagErr v 90 1 (G.cos (A.rd (al' + A.rd (delta * G.sin al')))) (Real.cos (al + delta * Real.sin al)) := by
  have v0 := hA.u_nonneg.trans huv
  have v1 : v ≤ 1 / 1000 := hv.trans (by norm_num)
  have h1 := (((MagErr.exact (v := v) hd).mul v0 v1 le_rfl (by norm_num) (h.sin hG v0)).rd hA huv hv (by norm_num))
  refine ⟨?_, Real.abs_cos_le_one _⟩
  -- the error of the sum is counted by hand, since the two bounds differ much
  have e1 := h1.err
  have e2 := h.err
  have s : |al' + A.rd (delta * G.sin al') - (al + delta * Real.sin al)| ≤ 79.3 * v := by
    rw [show al' + A.rd (delta * G.sin al') - (al + delta * Real.sin al) =
      (al' - al) + (A.rd (delta * G.sin al') - delta * Real.sin al) by ring]
    refine (abs_add_le _ _).trans ?_
    norm_num at e1 e2 ⊢
    linarith
  have b : |al + delta * Real.sin al| ≤ 7.3 := by
    have := h1.bound
    exact (abs_add_le _ _).trans (by linarith [h.bound])
  have r := rd_absv hA huv s b
  have c := (MagErr.cos (e := 88) (M := 1) hG v0 (x := al + delta * Real.sin al)
    (x' := A.rd (al' + A.rd (delta * G.sin al'))) : _)
  have k1 : |G.cos (A.rd (al' + A.rd (delta * G.sin al'))) - Real.cos (A.rd (al' + A.rd (delta * G.sin al')))| ≤ v * 1 :=
    (hG.cos _).trans (mul_le_mul_of_nonneg_left (Real.abs_cos_le_one _) v0)
  have k2 := Real.abs_cos_sub_cos_le (A.rd (al' + A.rd (delta * G.sin al'))) (al + delta * Real.sin al)
  have k3 := abs_sub_le (G.cos (A.rd (al' + A.rd (delta * G.sin al'))))
    (Real.cos (A.rd (al' + A.rd (delta * G.sin al')))) (Real.cos (al + delta * Real.sin al))
  clear c
  nlinarith

/-- `(1 - psi²)` times the shift. -/
theorem shift_within (hA : StandardModel A u) (huv : u ≤ v) (hv : v ≤ 1 / 10 ^ 5) (s psi : ℝ) :
    MagErr v 3.1 (|s| * (1 + psi ^ 2)) (A.rd (|s| * A.rd (1 - A.rd (psi ^ 2)))) (|s| * (1 - psi ^ 2)) := by
  have v0 := hA.u_nonneg.trans huv
  have v1 : v ≤ 1 / 1000 := hv.trans (by norm_num)
  have h1 := (MagErr.exact (v := v) (show |psi ^ 2| ≤ psi ^ 2 by rw [abs_of_nonneg (sq_nonneg _)])).rd hA huv hv le_rfl
  have h2 := ((MagErr.exact (v := v) (show |(1 : ℝ)| ≤ 1 by norm_num)).err_le (by norm_num) v0).sub h1
  have h3 := h2.rd hA huv hv (by norm_num)
  have h4 := ((MagErr.exact (v := v) (show |(|s|)| ≤ |s| by rw [abs_abs])).mul v0 v1 le_rfl (by norm_num) h3).rd hA huv hv
    (by norm_num)
  exact h4.err_le (by norm_num) v0

theorem fausser_within (hA : StandardModel A u) (hG : AccurateTrig G v) (huv : u ≤ v) (hv : v ≤ 1 / 10 ^ 5)
    {l : LCFSInfo ℝ} (hd : |l.delta| ≤ 1) (psi : ℝ) {al al' : ℝ} (h : MagErr v 6.1 6.3 al' al) :
    MagErr v 100 (|l.r0| + |psi * (l.r0 / l.aspect)| + |l.shift| * (1 + psi ^ 2))
      (fausserPointR A G l psi al').1 (fausserPoint l psi al).1 ∧
    MagErr v 60 (|l.z0| + |psi * (l.r0 / l.aspect)| * |l.kappa|) (fausserPointR A G l psi al').2 (fausserPoint l psi al).2 := by
  have v0 := hA.u_nonneg.trans huv
  have v1 : v ≤ 1 / 1000 := hv.trans (by norm_num)
  obtain ⟨ha, -⟩ := minor_within hA huv hv psi l.r0 l.aspect
  unfold fausserPointR fausserPoint
  simp only
  rw [show psi * l.r0 / l.aspect = psi * (l.r0 / l.aspect) by ring]
  constructor
  · have h1 := (ha.mul v0 v1 (by norm_num) (by norm_num) (cosine_within hA hG huv hv hd h)).rd hA huv hv (by norm_num)
    have h2 := (((MagErr.exact (v := v) (le_refl |l.r0|)).err_le (by norm_num) v0).add h1).rd hA huv hv (by norm_num)
    have h3 := (h2.add ((shift_within hA huv hv l.shift psi).err_le (by norm_num) v0)).rd hA huv hv (by norm_num)
    rw [mul_one] at h3
    exact h3.err_le (by norm_num) v0
  · have h1 := (ha.mul v0 v1 (by norm_num) le_rfl (MagErr.exact (le_refl |l.kappa|))).rd hA huv hv (by norm_num)
    have h2 := (h1.mul v0 v1 (by norm_num) (by norm_num) (h.sin hG v0)).rd hA huv hv (by norm_num)
    have h3 := (((MagErr.exact (v := v) (le_refl |l.z0|)).err_le (by norm_num) v0).add h2).rd hA huv hv (by norm_num)
    rw [mul_one] at h3
    exact h3.err_le (by norm_num) v0

theorem sauter_within (hA : StandardModel A u) (hG : AccurateTrig G v) (huv : u ≤ v) (hv : v ≤ 1 / 10 ^ 5)
    {l l' : LCFSInfo ℝ} (hl : l.minor = l.r0 / l.aspect) (hl' : l' = { l with minor := A.rd (l.r0 / l.aspect) })
    (hd : |l.delta| ≤ 1) (psi : ℝ) {al al' : ℝ} (h : MagErr v 6.1 6.3 al' al) :
    MagErr v 105 (|l.r0| + |psi * (l.r0 / l.aspect)| + |l.squareness|)
      (sauterPointR A G l' psi al').1 (sauterPoint l psi al).1 ∧
    MagErr v 110 (|l.z0| + |psi * (l.r0 / l.aspect)| * |l.kappa| * (1 + |l.squareness|))
      (sauterPointR A G l' psi al').2 (sauterPoint l psi al).2 := by
  have v0 := hA.u_nonneg.trans huv
  have v1 : v ≤ 1 / 1000 := hv.trans (by norm_num)
  obtain ⟨-, ha⟩ := minor_within hA huv hv psi l.r0 l.aspect
  subst hl'
  unfold sauterPointR sauterPoint
  simp only [hl]
  have h2a : MagErr v 7.2 12.6 (A.rd (2 * al')) (2 * al) :=
    (((MagErr.exact (v := v) (show |(2 : ℝ)| ≤ 2 by norm_num)).mul v0 v1 le_rfl (by norm_num) h).rd hA huv hv
      (by norm_num)).weaken (by norm_num) (by norm_num) (by norm_num) v0
  have hsq : MagErr v 93 |l.squareness| (A.rd (l.squareness * G.sin (A.rd (2 * al')))) (l.squareness * Real.sin (2 * al)) := by
    have := ((MagErr.exact (v := v) (le_refl |l.squareness|)).mul v0 v1 le_rfl (by norm_num) (h2a.sin hG v0)).rd hA huv hv
      (by norm_num)
    rw [mul_one] at this
    exact this.err_le (by norm_num) v0
  constructor
  · have h1 := (ha.mul v0 v1 (by norm_num) (by norm_num) (cosine_within hA hG huv hv hd h)).rd hA huv hv (by norm_num)
    have h2 := (((MagErr.exact (v := v) (le_refl |l.r0|)).err_le (by norm_num) v0).add h1).rd hA huv hv (by norm_num)
    have h3 := (h2.sub (hsq.err_le (by norm_num) v0)).rd hA huv hv (by norm_num)
    rw [mul_one] at h3
    exact h3.err_le (by norm_num) v0
  · have s0 := abs_nonneg l.squareness
    have hs : MagErr v (101 * (1 + |l.squareness|)) 1
        (G.sin (A.rd (al' + A.rd (l.squareness * G.sin (A.rd (2 * al'))))))
        (Real.sin (al + l.squareness * Real.sin (2 * al))) := by
      refine ⟨?_, Real.abs_sin_le_one _⟩
      have e1 := h.err
      have e2 := hsq.err
      have s : |al' + A.rd (l.squareness * G.sin (A.rd (2 * al'))) - (al + l.squareness * Real.sin (2 * al))| ≤
          (38.5 + 93 * |l.squareness|) * v := by
        rw [show al' + A.rd (l.squareness * G.sin (A.rd (2 * al'))) - (al + l.squareness * Real.sin (2 * al)) =
          (al' - al) + (A.rd (l.squareness * G.sin (A.rd (2 * al'))) - l.squareness * Real.sin (2 * al)) by ring]
        refine (abs_add_le _ _).trans ?_
        norm_num at e1 ⊢
        nlinarith
      have b : |al + l.squareness * Real.sin (2 * al)| ≤ 6.3 + |l.squareness| :=
        (abs_add_le _ _).trans (add_le_add h.bound hsq.bound)
      have r := rd_absv hA huv s b
      set w := A.rd (al' + A.rd (l.squareness * G.sin (A.rd (2 * al')))) with hw
      have k1 : |G.sin w - Real.sin w| ≤ v * 1 :=
        (hG.sin _).trans (mul_le_mul_of_nonneg_left (Real.abs_sin_le_one _) v0)
      have k2 := Real.abs_sin_sub_sin_le w (al + l.squareness * Real.sin (2 * al))
      have k3 := abs_sub_le (G.sin w) (Real.sin w) (Real.sin (al + l.squareness * Real.sin (2 * al)))
      have k4 : v * ((38.5 + 93 * |l.squareness|) * v) ≤ 1 / 1000 * ((38.5 + 93 * |l.squareness|) * v) :=
        mul_le_mul_of_nonneg_right v1 (by positivity)
      have k5 : 0 ≤ |l.squareness| * v := by positivity
      norm_num at k4 r ⊢
      nlinarith
    set S := 1 + |l.squareness| with hS
    have h1 := ((MagErr.exact (v := v) (le_refl |l.kappa|)).mul v0 v1 le_rfl (by norm_num) ha).rd hA huv hv (by norm_num)
    have p0 : 0 ≤ |l.kappa| * |psi * (l.r0 / l.aspect)| := by positivity
    have h2 : MagErr v 105.5 (|psi * (l.r0 / l.aspect)| * |l.kappa| * S)
        (A.rd (l.kappa * A.rd (psi * A.rd (l.r0 / l.aspect))) *
          G.sin (A.rd (al' + A.rd (l.squareness * G.sin (A.rd (2 * al'))))))
        (l.kappa * (psi * (l.r0 / l.aspect)) * Real.sin (al + l.squareness * Real.sin (2 * al))) := by
      have m := h1.mul v0 v1 (by norm_num) (by positivity) hs
      have S1 : 1 ≤ S := by rw [hS]; linarith
      refine ⟨m.err.trans (mul_le_mul_of_nonneg_right ?_ v0), m.bound.trans ?_⟩
      · rw [mul_one, show 105.5 * (|psi * (l.r0 / l.aspect)| * |l.kappa| * S) =
          (105.5 * S) * (|l.kappa| * |psi * (l.r0 / l.aspect)|) by ring]
        exact mul_le_mul_of_nonneg_right (by norm_num; linarith) p0
      · nlinarith
    have h3 := (((MagErr.exact (v := v) (le_refl |l.z0|)).err_le (by norm_num) v0).add (h2.rd hA huv hv (by norm_num))).rd
      hA huv hv (by norm_num)
    exact h3.err_le (by norm_num) v0

end
end
end TNS
