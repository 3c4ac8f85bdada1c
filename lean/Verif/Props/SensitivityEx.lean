import Verif.Props.SensitivityPlasma
/-
C104: the hypotheses are met, and the bounds for the radius cannot be improved much.
-/

set_option autoImplicit false

namespace TNS
open Spec
noncomputable section

/-- C104.  The edge of a pedestal really is that sensitive: outside the pedestal the relative change at the separatrix is
the one of `C104_near_pedestal`, and between the axis and the pedestal radius, for exponents 1, so is the
change relative to the separatrix value. -/
theorem C104_sharp {core ped sep rp h : ℝ} (hr0 : 0 < rp) (hr1 : rp < 1) (hps : sep ≤ ped) (hcp : ped ≤ core)
    (hh : 0 ≤ h) (h1 : h ≤ 1 - rp) (h2 : h < rp) :
    |parabolaOnPedestal core ped sep 1 1 rp (1 - h) - parabolaOnPedestal core ped sep 1 1 rp 1| =
      (ped - sep) * (h / (1 - rp)) ∧
    |parabolaOnPedestal core ped sep 1 1 rp h - parabolaOnPedestal core ped sep 1 1 rp 0| =
      (core - ped) * powLoss 1 (powLoss 1 (h / rp)) := by
  have c : ∀ x : ℝ, 0 ≤ x → x ≤ 1 → clamped x = x := by
    intro x x0 x1
    unfold clamped
    rw [min_eq_left x1, max_eq_right x0]
  have d : 0 < 1 - rp := by linarith
  unfold parabolaOnPedestal powLoss
  rw [c 1 zero_le_one le_rfl, c (1 - h) (by linarith) (by linarith), c h hh (by linarith), c 0 le_rfl zero_le_one,
    if_neg (by linarith : ¬ (1 : ℝ) - h < rp), if_neg (by linarith : ¬ (1 : ℝ) < rp), if_pos h2, if_pos hr0,
    if_pos le_rfl]
  simp only [Real.rpow_one, one_mul]
  constructor
  · have e : sep + (ped - sep) * ((1 - (1 - h)) / (1 - rp)) - (sep + (ped - sep) * ((1 - 1) / (1 - rp))) =
      (ped - sep) * (h / (1 - rp)) := by ring
    rw [e]
    exact abs_of_nonneg (mul_nonneg (sub_nonneg.2 hps) (div_nonneg hh d.le))
  · have e : ped + (core - ped) * (1 - h / rp) - (ped + (core - ped) * (1 - 0 / rp)) = -((core - ped) * (h / rp)) := by
      rw [zero_div]; ring
    rw [e, abs_neg]
    have k : |(core - ped) * (h / rp)| = (core - ped) * (h / rp) :=
      abs_of_nonneg (mul_nonneg (sub_nonneg.2 hcp) (div_nonneg hh hr0.le))
    rw [k]
    try simp

namespace Ex

/-- The plasma meant: slightly warmer and denser than the one read off the profiles. -/
def warm : TransportView ℝ :=
  { temperature := fun _ => .ok (10 + 1 / 10 ^ 8)
    deuterium := fun _ => .ok (1e20 + 1 / 10)
    tritium := fun _ => .ok 1e20
    helium3 := fun _ => .ok 0 }

/-- The hypotheses of the claims are met: a 500 MW source with the default reactions computed for 10 keV is, to five parts in
a hundred thousand, the one of a plasma of 10.00000001 keV on another flux map. -/
example (psi' psi : ℝ → ℝ → ℝ) : ∃ (s : Source ℝ) (U : SI) (m : Masses ℝ), centres s ≠ [] ∧ .TT ∈ s.sourceType ∧
    ∀ r ∈ s.sourceType, List.Forall₂ (fun a p => RelClose (5 / 10 ^ 5) a
      (5e8 * cellRate (referenceReactivity U m .AUTO) warm psi (3 / 10) r p /
        cellsPower (referenceReactivity U m .AUTO) (fun _ => 2.8e-12) warm psi (3 / 10) (centres s) s.sourceType))
      (strengths s r) (centres s) := by
  obtain ⟨s, hs, htt, hdt, hok, hN, hne⟩ := default_source psi'
  generalize hU : (⟨1.602176634e-16, 1.66053906660e-27⟩ : SI) = U at hs
  generalize hM : (⟨2.01410177812, 3.0160492779, 4.002602, 3.0160293201, 1.00866491588,
        1.007276466621, 5.48579909065e-4⟩ : Masses ℝ) = m at hs
  have hm : RoughData U m := by rw [← hU, ← hM]; exact rough_measured
  have h53 := u53
  have hp : (0 : ℝ) < (2 : ℝ) ^ (-53 : ℤ) := by positivity
  have hpi : |round53 Real.pi - Real.pi| ≤ (2 : ℝ) ^ (-53 : ℤ) * Real.pi := by
    have := C74_binary64.rel Real.pi
    rwa [abs_of_pos Real.pi_pos] at this
  have hN' : (cells s : ℝ) + s.sourceType.length ≤ 1000000 := by exact_mod_cast hN
  have hε : 2.3 * (165000 * (4 * (2 : ℝ) ^ (-53 : ℤ))) +
      3 * ((cells s : ℝ) + s.sourceType.length + 14) * (2 : ℝ) ^ (-53 : ℤ) ≤ 1 / 10 ^ 9 := by
    have : 3 * ((cells s : ℝ) + s.sourceType.length + 14) * (2 : ℝ) ^ (-53 : ℤ) ≤
        3 * 1000014 * (2 : ℝ) ^ (-53 : ℤ) := mul_le_mul_of_nonneg_right (by linarith) hp.le
    linarith
  have hacc : ∀ r ∈ s.sourceType, _ := fun r (_ : r ∈ s.sourceType) =>
    all_accurate C74_binary64 accurate_libs.2 (by linarith) (by linarith) hpi hm .AUTO r
  have hin : PlasmaInside warm psi (centres s) := by
    intro p hp'
    refine ⟨(hok p hp').1, fun sp => ?_, ?_, ?_⟩
    · cases sp <;> simp [density, valueAt, warm] <;> norm_num
    · simp [temperatureAt, valueAt, warm]; norm_num
    · simp [temperatureAt, valueAt, warm]; norm_num
  have hag : ∀ p ∈ centres s, CellAgrees (2 / 10 ^ 9) flat psi' warm psi p := by
    intro p _
    refine ⟨⟨_, _, rfl, rfl, ?_⟩, ⟨_, _, rfl, rfl, ?_⟩, ⟨_, _, rfl, rfl, ?_⟩, ⟨_, _, rfl, rfl, ?_⟩⟩ <;>
      rw [abs_le] <;> norm_num
  have H := C104_strengths (K := 5300) C74_binary64 hpi (fun _ => by norm_num) (by positivity) hacc (by norm_num)
    (fun r _ => C104_reference hm .AUTO r (by norm_num) (by norm_num)) (by norm_num) (by norm_num) (by norm_num) hin hag
    (by norm_num) hs (hε.trans (by norm_num))
  refine ⟨s, U, m, hne, htt, fun r hr => (H.2 r hr).imp fun a p hap => ?_⟩
  have hq : 0 ≤ 5e8 * cellRate (referenceReactivity U m .AUTO) warm psi (3 / 10) r p /
      cellsPower (referenceReactivity U m .AUTO) (fun _ => 2.8e-12) warm psi (3 / 10) (centres s) s.sourceType := by
    by_contra hneg
    push Not at hneg
    have k : 0 < 1.01 * (2.3 * (165000 * (4 * (2 : ℝ) ^ (-53 : ℤ))) +
      3 * ((cells s : ℝ) + s.sourceType.length + 14) * (2 : ℝ) ^ (-53 : ℤ)) + 2.01 * ((5300 + 3) * (2 / 10 ^ 9 : ℝ)) := by
      positivity
    have := (abs_nonneg _).trans hap
    have := mul_neg_of_pos_of_neg k hneg
    linarith
  refine le_trans hap (mul_le_mul_of_nonneg_right ?_ hq)
  linarith

end Ex

/-- The pedestal profiles of a typical plasma meet the conditions of `C104_binary64`. -/
example : OrdinaryPedestal 20 5 0.25 1.45 2 0.94 ∧ OrdinaryPedestal 1e20 8e19 2e19 1 2 0.94 ∧ (1 : ℝ) / 2 ≤ 0.94 ∧
    (0.94 : ℝ) ≤ 99 / 100 ∧ (0.21 : ℝ) ≤ 0.25 := by
  refine ⟨?_, ?_, ?_, ?_, ?_⟩ <;> first | (constructor <;> norm_num) | norm_num

/-- A table with slopes of at most 12 keV and values of at least 1 keV. -/
example : NearAt (12 * (1 / 10 ^ 6) / 1) (Profile.mk (.data [(0, 12), (1 / 2, 7), (1, 1)]) 1).value (1 / 4 + 1 / 10 ^ 6)
    (Profile.mk (.data [(0, 12), (1 / 2, 7), (1, 1)]) 1).value (1 / 4) := by
  have ok : ∀ x : ℝ, 0 ≤ x → x ≤ 1 → ∃ y, (Profile.mk (.data [(0, 12), (1 / 2, 7), (1, 1)]) 1).value x = .ok y := by
    intro x x0 x1
    have e : ([(0, 12), (1 / 2, 7), (1, 1)] : List (ℝ × ℝ)).mergeSort (fun p q => decide (p.1 ≤ q.1)) =
        [(0, 12), (1 / 2, 7), (1, 1)] := by
      apply List.mergeSort_of_pairwise
      norm_num
    have hc : clip 0 1 x = x := clip_of_mem x x0 x1
    refine ⟨1 * npInterp [(0, 12), (1 / 2, 7), (1, 1)] x, ?_⟩
    simp only [Profile.value, dataValue, interp1d, e, hc, List.head?_cons, List.getLast?_cons_cons, List.getLast?_singleton]
    rw [if_neg (by push Not; exact ⟨x0, x1⟩)]
    rfl
  refine C104_near_data zero_le_one ?_ one_pos ?_ (by norm_num) ?_ (ok _ (by norm_num) (by norm_num))
    (ok _ (by norm_num) (by norm_num))
  · rw [abs_le]; norm_num
  · intro p hp
    fin_cases hp <;> norm_num
  · intro a ha b hb
    fin_cases ha <;> fin_cases hb <;> simp only <;> norm_num [abs_of_pos, abs_of_neg]

end
end TNS
