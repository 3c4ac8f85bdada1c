import Verif.Props.SensitivityRadius
import Verif.Props.RoundedProfileOrder
/-
C104: from profile parameters and an approximate flux map to the source.
-/

set_option autoImplicit false

namespace TNS
open Spec
noncomputable section

theorem pedestal_formula {core ped sep alpha beta rp : ℝ} (ha : 0 < alpha) (hb : 0 < beta) (hr0 : 0 < rp) (hr1 : rp < 1)
    (rho : ℝ) : pedestalValue core ped sep alpha beta rp rho = parabolaOnPedestal core ped sep alpha beta rp rho := by
  rw [C37_formula core ped sep alpha beta rp ha hb hr0 hr1, clip_eq_clamped]
  unfold parabolaOnPedestal
  split_ifs <;> ring

/-- C104.  A pedestal profile read off at a radius that is wrong by at most `h`. -/
theorem C104_near_pedestal {core ped sep alpha beta rp scale x x' h : ℝ} (hs : 0 < sep) (hps : sep ≤ ped)
    (hcp : ped ≤ core) (ha : 0 < alpha) (hb : 0 < beta) (hr0 : 0 < rp) (hr1 : rp < 1) (hsc : 0 ≤ scale)
    (hx : |x' - x| ≤ h) :
    NearAt (((core - ped) * powLoss alpha (powLoss beta (h / rp)) + (ped - sep) * (h / (1 - rp))) / sep)
      (Profile.mk (.pedestal core ped sep alpha beta rp) scale).value x'
      (Profile.mk (.pedestal core ped sep alpha beta rp) scale).value x := by
  refine ⟨_, _, rfl, rfl, ?_⟩
  have H := C104_pedestal hcp hps ha hb hr0 hr1 hx
  have hlow := (C37_bounds core ped sep alpha beta rp ha hb hr0 hr1 hcp hps x).1
  rw [pedestal_formula ha hb hr0 hr1] at hlow
  rw [pedestal_formula ha hb hr0 hr1, pedestal_formula ha hb hr0 hr1, ← sub_mul, abs_mul, abs_of_nonneg hsc, ← mul_assoc]
  refine mul_le_mul_of_nonneg_right (H.trans ?_) hsc
  have hB := (abs_nonneg _).trans H
  rw [div_mul_eq_mul_div, le_div_iff₀ hs]
  exact mul_le_mul_of_nonneg_left hlow hB

/-- C104.  A parabolic profile, away from its zero. -/
theorem C104_near_parabolic {core alpha beta scale x x' h : ℝ} (hc : 0 ≤ core) (ha : 0 < alpha) (hb : 0 < beta)
    (hsc : 0 ≤ scale) (hx : |x' - x| ≤ h) (hf : 0 < 1 - clamped x ^ beta) :
    NearAt (powLoss alpha (powLoss beta h) / (1 - clamped x ^ beta) ^ alpha)
      (Profile.mk (.parabolic core alpha beta) scale).value x' (Profile.mk (.parabolic core alpha beta) scale).value x := by
  have e : ∀ y, parabolicValue core alpha beta y = parabola core alpha beta y := by
    intro y
    rw [C36_formula core alpha beta y ha hb, clip_eq_clamped]
    rfl
  refine ⟨_, _, rfl, rfl, ?_⟩
  rw [e, e, ← mul_sub, abs_mul, abs_of_nonneg hsc]
  have H := C104_parabola hc ha hb hx
  have hp := Real.rpow_pos_of_pos hf alpha
  calc scale * |parabola core alpha beta x' - parabola core alpha beta x| ≤
      scale * (core * powLoss alpha (powLoss beta h)) := mul_le_mul_of_nonneg_left H hsc
    _ = _ := by unfold parabola; field_simp

/-- C104.  A tabulated profile with values of at least `m` and slopes of at most `K`. -/
theorem C104_near_data {table : List (ℝ × ℝ)} {scale x x' h m K : ℝ} (hsc : 0 ≤ scale) (hx : |x' - x| ≤ h)
    (hm : 0 < m) (ht : ∀ p ∈ table, m ≤ p.2) (hK : 0 ≤ K)
    (hl : ∀ a ∈ table, ∀ b ∈ table, |a.2 - b.2| ≤ K * |a.1 - b.1|)
    (h1 : ∃ y, (Profile.mk (.data table) scale).value x' = .ok y)
    (h2 : ∃ y, (Profile.mk (.data table) scale).value x = .ok y) :
    NearAt (K * h / m) (Profile.mk (.data table) scale).value x' (Profile.mk (.data table) scale).value x := by
  obtain ⟨y', e1⟩ := h1
  obtain ⟨y, e2⟩ := h2
  refine ⟨y', y, e1, e2, ?_⟩
  obtain ⟨hne, r1⟩ := data_value_eq e1
  obtain ⟨-, r2⟩ := data_value_eq e2
  have hs : (table.mergeSort fun p q : ℝ × ℝ => decide (p.1 ≤ q.1)).Pairwise fun a b => a.1 ≤ b.1 := by
    have := List.pairwise_mergeSort (le := fun p q : ℝ × ℝ => decide (p.1 ≤ q.1))
      (fun a b c => by simpa using le_trans) (fun a b => by simpa using le_total a.1 b.1) table
    exact this.imp (by simp)
  have hl' : ∀ a ∈ (table.mergeSort fun p q : ℝ × ℝ => decide (p.1 ≤ q.1)),
      ∀ b ∈ (table.mergeSort fun p q : ℝ × ℝ => decide (p.1 ≤ q.1)), |a.2 - b.2| ≤ K * |a.1 - b.1| := fun a ha b hb =>
    hl a (List.mem_mergeSort.1 ha) b (List.mem_mergeSort.1 hb)
  have low : m ≤ npInterp (table.mergeSort fun p q => decide (p.1 ≤ q.1)) (clip 0 1 x) := by
    obtain ⟨p, hp⟩ := List.exists_mem_of_ne_nil _ hne
    exact npInterp_lower _ _ (by
      intro h
      have := List.mem_mergeSort (le := fun p q : ℝ × ℝ => decide (p.1 ≤ q.1)) |>.2 hp
      rw [h] at this
      cases this) fun p hp => ht p (List.mem_mergeSort.1 hp)
  rw [r1, r2]
  rw [clip_eq_clamped, clip_eq_clamped] at *
  generalize (table.mergeSort fun p q : ℝ × ℝ => decide (p.1 ≤ q.1)) = l at *
  have hc := clamped_close hx
  have H : |npInterp l (clamped x') - npInterp l (clamped x)| ≤ K * h := by
    rcases le_total (clamped x') (clamped x) with hle | hle
    · refine (npInterp_slope hK l hs hl' hle).trans (mul_le_mul_of_nonneg_left ?_ hK)
      have := (abs_le.1 hc).1; linarith
    · rw [abs_sub_comm]
      refine (npInterp_slope hK l hs hl' hle).trans (mul_le_mul_of_nonneg_left ?_ hK)
      have := (abs_le.1 hc).2; linarith
  rw [← mul_sub, abs_mul, abs_of_nonneg hsc]
  have hh := (abs_nonneg _).trans H
  have q : K * h ≤ K * h / m * npInterp l (clamped x) := by
    rw [div_mul_eq_mul_div, le_div_iff₀ hm]
    exact mul_le_mul_of_nonneg_left low hh
  calc scale * |npInterp l (clamped x') - npInterp l (clamped x)| ≤ scale * (K * h / m * npInterp l (clamped x)) :=
        mul_le_mul_of_nonneg_left (H.trans q) hsc
    _ = _ := by ring

/-- Rounding at the radius used, and the difference between the radii. -/
theorem near_join {f' f : ℝ → Except Err ℝ} {δ₁ δ₂ x x' : ℝ} (h0 : 0 ≤ δ₁) (hδ₁ : δ₁ ≤ 1 / 100)
    (h1 : AgreeAt δ₁ f' f x') (h2 : NearAt δ₂ f x' f x) (hn : ∀ y, f x = .ok y → 0 ≤ y) :
    NearAt (δ₁ + 1.01 * δ₂) f' x' f x := by
  obtain ⟨a, b, e1, e2, e3⟩ := h1
  obtain ⟨c, d, e4, e5, e6⟩ := h2
  rw [e2] at e4
  cases e4
  refine ⟨a, d, e1, e5, ?_⟩
  have d0 := hn d e5
  have := abs_sub_le a b d
  have b1 := (abs_le.1 e6).2
  have k := (abs_nonneg _).trans e6
  have : δ₁ * b ≤ δ₁ * (d + δ₂ * d) := mul_le_mul_of_nonneg_left (by linarith) h0
  have : δ₁ * (δ₂ * d) ≤ 1 / 100 * (δ₂ * d) := mul_le_mul_of_nonneg_right hδ₁ k
  linarith

theorem near_map {f : ℝ → Except Err ℝ} {δ x x' c : ℝ} (hc : 0 ≤ c) (h : NearAt δ f x' f x) :
    NearAt δ (fun r => (f r).map fun n => c * n) x' (fun r => (f r).map fun n => c * n) x := by
  obtain ⟨a, b, e1, e2, e3⟩ := h
  refine ⟨c * a, c * b, by simp only [e1]; rfl, by simp only [e2]; rfl, ?_⟩
  rw [← mul_sub, abs_mul, abs_of_nonneg hc]
  have := mul_le_mul_of_nonneg_left e3 hc
  linarith

/-- C104.  A computed plasma on a computed flux map against the plasma meant, at a cell: the errors of the profile formulas
at the radius used add up with the change of the profiles between the two radii. -/
theorem C104_cell {tr' : TransportView ℝ} {temp fuel : ℝ → Except Err ℝ} {d t h δ₁ δ₂ : ℝ} (hd : 0 ≤ d) (ht : 0 ≤ t)
    (hh : 0 ≤ h) (hS : 0 < d + t + h) (h0 : 0 ≤ δ₁) (hδ₁ : δ₁ ≤ 1 / 100) {psi' psi : ℝ → ℝ → ℝ} {p : ℝ × ℝ}
    (hround : PlasmaAgrees δ₁ tr' (idealPlasma temp fuel d t h) (psi' p.1 p.2))
    (hT : NearAt δ₂ temp (psi' p.1 p.2) temp (psi p.1 p.2)) (hn : NearAt δ₂ fuel (psi' p.1 p.2) fuel (psi p.1 p.2))
    (hTp : ∀ y, temp (psi p.1 p.2) = .ok y → 0 ≤ y) (hnp : ∀ y, fuel (psi p.1 p.2) = .ok y → 0 ≤ y) :
    CellAgrees (δ₁ + 1.01 * δ₂) tr' psi' (idealPlasma temp fuel d t h) psi p := by
  have nd : ∀ {x : ℝ}, 0 ≤ x → 0 ≤ x / (d + t + h) := fun hx => div_nonneg hx hS.le
  have pos : ∀ {c : ℝ}, 0 ≤ c → ∀ y, (fun r => (fuel r).map fun n => c * n) (psi p.1 p.2) = .ok y → 0 ≤ y := by
    intro c hc y hy
    obtain ⟨-, b, -, e2, -⟩ := hn
    simp only [e2, Except.map] at hy
    cases hy
    exact mul_nonneg hc (hnp b e2)
  exact ⟨near_join h0 hδ₁ hround.temperature hT hTp,
    near_join h0 hδ₁ hround.deuterium (near_map (nd hd) hn) (pos (nd hd)),
    near_join h0 hδ₁ hround.tritium (near_map (nd ht) hn) (pos (nd ht)),
    near_join h0 hδ₁ hround.helium3 (near_map (nd hh) hn) (pos (nd hh))⟩

/-- C104.  Double precision, from the parameters of pedestal profiles, a fuel mixture and a flux map with an error of at most
`10^-12` to a source normalised to any power, for every source type and every reactivity method: the strength of a cell
is the share of the plasma meant, with a relative error of at most `1.5 10^-5 + 2 10^9 η`, `η` the error of the
map. -/
theorem C104_binary64 {F : MathLib} (hF : AccurateLib F (4 * (2 : ℝ) ^ (-53 : ℤ))) (hF0 : PowZero F)
    {U : SI} {m : Masses ℝ} (hm : RoughData U m) {Q : Reaction → ℝ} (hQ : ∀ r, 0 < Q r)
    {cT pT sT aT bT rT cN pN sN aN bN rN : ℝ} (hT : OrdinaryPedestal cT pT sT aT bT rT)
    (hN : OrdinaryPedestal cN pN sN aN bN rN) (hbT : 1 ≤ bT) (hbN : 1 ≤ bN)
    (hrT : 1 / 2 ≤ rT ∧ rT ≤ 99 / 100) (hrN : 1 / 2 ≤ rN ∧ rN ≤ 99 / 100) (hT0 : 0.21 ≤ sT) (hT1 : cT ≤ 99)
    {d t h : ℝ} (hd : 0 ≤ d) (ht : 0 ≤ t) (hh : 0 ≤ h) (hS : 0 < d + t + h)
    {pts : List (ℝ × ℝ)} {oX oZ : ℝ} {psi' psi : ℝ → ℝ → ℝ} {η : ℝ} (hη : η ≤ 1 / 10 ^ 12)
    {arg : SourceArg} {L : ℝ} {method : ReactivityMethod} {P : ℝ} (hP : 0 < P) :
    let temp := Profile.mk (.pedestal cT pT sT aT bT rT) 1
    let fuel := Profile.mk (.pedestal cN pN sN aN bN rN) 1
    let plasma := idealPlasma temp.value fuel.value d t h
    ∃ c, Composition.makeR binary64 d t h = .ok c ∧
      ∀ s, Source.makeR binary64 F (reactivityXsR binary64 F (round53 Real.pi) U m) (round53 Real.pi) Q pts oX oZ psi'
          ((Transport.fromParameterisationsR binary64 temp fuel c).viewR binary64 F) arg L (some P) method = .ok s →
        cells s + s.sourceType.length ≤ 1000000 → (∀ p ∈ centres s, 0 ≤ p.1 ∧ |psi' p.1 p.2 - psi p.1 p.2| ≤ η) →
        ∀ r ∈ s.sourceType, List.Forall₂
          (fun a p => RelClose (1.5 / 10 ^ 5 + 2 * 10 ^ 9 * η) a
            (P * cellRate (referenceReactivity U m method) plasma psi L r p /
              cellsPower (referenceReactivity U m method) Q plasma psi L (centres s) s.sourceType))
          (strengths s r) (centres s) := by
  intro temp fuel plasma
  have h53 : (2 : ℝ) ^ (-53 : ℤ) ≤ 1.2 / 10 ^ 16 := by
    rw [zpow_neg, show ((2 : ℝ) ^ (53 : ℤ)) = 2 ^ 53 by norm_cast]; norm_num
  have hp : (0 : ℝ) < (2 : ℝ) ^ (-53 : ℤ) := by positivity
  have hpi : |round53 Real.pi - Real.pi| ≤ (2 : ℝ) ^ (-53 : ℤ) * Real.pi := by
    have := C74_binary64.rel Real.pi
    rwa [abs_of_pos Real.pi_pos] at this
  have bT' : ∀ rho, ∃ T, temp.value rho = .ok T ∧ sT ≤ T ∧ T ≤ cT := fun rho => by
    have := C37_bounds cT pT sT aT bT rT (by linarith [hT.alpha_ge]) hT.beta_pos hT.rp_pos hT.rp_lt hT.ped_le hT.sep_le rho
    exact ⟨_, rfl, by rw [mul_one]; exact this.1, by rw [mul_one]; exact this.2⟩
  have bN' : ∀ rho, ∃ n, fuel.value rho = .ok n ∧ sN ≤ n := fun rho => by
    have := C37_bounds cN pN sN aN bN rN (by linarith [hN.alpha_ge]) hN.beta_pos hN.rp_pos hN.rp_lt hN.ped_le hN.sep_le rho
    exact ⟨_, rfl, by rw [mul_one]; exact this.1⟩
  have pT' : ∀ rho y, temp.value rho = .ok y → 0 ≤ y := fun rho y hy => by
    obtain ⟨T, e, l, -⟩ := bT' rho
    rw [e] at hy; cases hy; linarith [hT.sep_pos]
  have pN' : ∀ rho y, fuel.value rho = .ok y → 0 ≤ y := fun rho y hy => by
    obtain ⟨n, e, l⟩ := bN' rho
    rw [e] at hy; cases hy; linarith [hN.sep_pos]
  obtain ⟨c, hc, -⟩ := C100_composition C74_binary64 (by linarith) hd ht hh hS
  refine ⟨c, hc, fun s hs hcells hx => ?_⟩
  have hround : ∀ rho, PlasmaAgrees (2 / 10 ^ 10 + 6 * (4 * (2 : ℝ) ^ (-53 : ℤ)))
      ((Transport.fromParameterisationsR binary64 temp fuel c).viewR binary64 F) plasma rho := by
    intro rho
    obtain ⟨c', hc', H⟩ := C100_parameterised (F := F) (δ := 2 / 10 ^ 10) C74_binary64
      (show (2 : ℝ) ^ (-53 : ℤ) ≤ 4 * (2 : ℝ) ^ (-53 : ℤ) by linarith)
      (by norm_num) (by norm_num) (by linarith) hd ht hh hS (temp := temp) (fuel := fuel) zero_le_one zero_le_one
      (ordinary_agrees hF hF0 hN rho) (ordinary_agrees hF hF0 hT rho) (pN' rho) (pT' rho)
    rw [hc] at hc'
    cases hc'
    exact H
  -- the change of the profiles with the radius
  have hrad : ∀ {core ped sep alpha beta rp : ℝ}, OrdinaryPedestal core ped sep alpha beta rp → 1 ≤ beta →
      (1 / 2 ≤ rp ∧ rp ≤ 99 / 100) → ∀ {x x' : ℝ}, |x' - x| ≤ η →
      NearAt (150000 * η) (Profile.mk (.pedestal core ped sep alpha beta rp) 1).value x'
        (Profile.mk (.pedestal core ped sep alpha beta rp) 1).value x := by
    intro core ped sep alpha beta rp hO hb hr x x' hxx
    have η0 := (abs_nonneg _).trans hxx
    obtain ⟨y', y, e1, e2, e3⟩ := C104_near_pedestal (scale := 1) (alpha := alpha) hO.sep_pos hO.sep_le hO.ped_le
      (by linarith [hO.alpha_ge]) hO.beta_pos hO.rp_pos hO.rp_lt zero_le_one hxx
    refine ⟨y', y, e1, e2, e3.trans (mul_le_mul_of_nonneg_right ?_ ?_)⟩
    · have l1 : powLoss alpha (powLoss beta (η / rp)) = alpha * (beta * (η / rp)) := by
        unfold powLoss; rw [if_pos hO.alpha_ge, if_pos hb]
      have l2 : η / rp ≤ 2 * η := by
        rw [div_le_iff₀ hO.rp_pos]; nlinarith [hr.1]
      have l3 : η / (1 - rp) ≤ 100 * η := by
        rw [div_le_iff₀ (by linarith [hr.2])]; nlinarith [hr.2]
      have l4 : alpha * (beta * (η / rp)) ≤ 5 * (5 * (2 * η)) := by
        have q0 : 0 ≤ η / rp := div_nonneg η0 hO.rp_pos.le
        refine mul_le_mul hO.alpha_le (mul_le_mul hO.beta_le l2 q0 (by norm_num)) (mul_nonneg hO.beta_pos.le q0) (by norm_num)
      rw [l1, div_le_iff₀ hO.sep_pos]
      have m1 : (core - ped) * (alpha * (beta * (η / rp))) ≤ (core - ped) * (50 * η) :=
        mul_le_mul_of_nonneg_left (by linarith) (by linarith [hO.ped_le])
      have m2 : (ped - sep) * (η / (1 - rp)) ≤ (ped - sep) * (100 * η) :=
        mul_le_mul_of_nonneg_left l3 (by linarith [hO.sep_le])
      have m3 : (core - ped) * (50 * η) + (ped - sep) * (100 * η) ≤ core * (150 * η) := by
        have := hO.sep_pos; have := hO.sep_le; have := hO.ped_le
        nlinarith [mul_nonneg (by linarith : (0 : ℝ) ≤ core) η0, mul_nonneg (by linarith : (0 : ℝ) ≤ ped) η0,
          mul_nonneg (by linarith : (0 : ℝ) ≤ core - ped) η0, mul_nonneg hO.sep_pos.le η0]
      have m4 : core * (150 * η) ≤ 1000 * sep * (150 * η) := mul_le_mul_of_nonneg_right hO.ratio (by positivity)
      linarith
    · have : (Profile.mk (.pedestal core ped sep alpha beta rp) 1).value x =
        .ok (pedestalValue core ped sep alpha beta rp x * 1) := rfl
      rw [this] at e2
      cases e2
      have := (C37_bounds core ped sep alpha beta rp (by linarith [hO.alpha_ge]) hO.beta_pos hO.rp_pos hO.rp_lt hO.ped_le
        hO.sep_le x).1
      linarith [hO.sep_pos]
  by_cases hne : centres s = []
  · have hT' := C93_cells hs
    intro r hr
    rw [hne]
    have hl : (strengths s r).length = (centres s).length := by
      have hN' : (cells s : ℝ) + s.sourceType.length ≤ 1000000 := by exact_mod_cast hcells
      have hok : PlasmaOK ((Transport.fromParameterisationsR binary64 temp fuel c).viewR binary64 F) psi' (centres s) := by
        rw [hne]; intro p hp'; cases hp'
      have hε : 2.3 * (165000 * (4 * (2 : ℝ) ^ (-53 : ℤ))) +
          3 * ((cells s : ℝ) + s.sourceType.length + 14) * (2 : ℝ) ^ (-53 : ℤ) ≤ 1 / 500 := by
        have : 3 * ((cells s : ℝ) + s.sourceType.length + 14) * (2 : ℝ) ^ (-53 : ℤ) ≤
            3 * 1000014 * (2 : ℝ) ^ (-53 : ℤ) := mul_le_mul_of_nonneg_right (by linarith) hp.le
        linarith
      exact ((C93_strengths C74_binary64 hpi hQ (by positivity) (fun r _ =>
        all_accurate C74_binary64 hF (by linarith) (by linarith) hpi hm method r) hok hP hs hε).2 r hr).length_eq
    rw [hne, List.length_nil, List.length_eq_zero_iff] at hl
    rw [hl]
    exact List.Forall₂.nil
  have η0 : 0 ≤ η := by
    obtain ⟨p, hp'⟩ := List.exists_mem_of_ne_nil _ hne
    exact (abs_nonneg _).trans (hx p hp').2
  have hN' : (cells s : ℝ) + s.sourceType.length ≤ 1000000 := by exact_mod_cast hcells
  set δ := (2 / 10 ^ 10 + 6 * (4 * (2 : ℝ) ^ (-53 : ℤ))) + 1.01 * (150000 * η) with hδ
  have hδ0 : 0 ≤ δ := by rw [hδ]; positivity
  have hδ1 : δ ≤ 2.1 / 10 ^ 10 + 151500 * η := by rw [hδ]; linarith
  have hδ2 : δ ≤ 1.6 / 10 ^ 7 := by linarith
  have hε : 2.3 * (165000 * (4 * (2 : ℝ) ^ (-53 : ℤ))) +
      3 * ((cells s : ℝ) + s.sourceType.length + 14) * (2 : ℝ) ^ (-53 : ℤ) ≤ 1 / 10 ^ 9 := by
    have : 3 * ((cells s : ℝ) + s.sourceType.length + 14) * (2 : ℝ) ^ (-53 : ℤ) ≤
        3 * 1000014 * (2 : ℝ) ^ (-53 : ℤ) := mul_le_mul_of_nonneg_right (by linarith) hp.le
    linarith
  have hacc : ∀ r ∈ s.sourceType, _ := fun r (_ : r ∈ s.sourceType) =>
    all_accurate C74_binary64 hF (by linarith) (by linarith) hpi hm method r
  have hin : PlasmaInside plasma psi (centres s) := by
    intro p hp'
    refine ⟨(hx p hp').1, ?_, ?_, ?_⟩
    · obtain ⟨n, e, l⟩ := bN' (psi p.1 p.2)
      have n0 : 0 ≤ n := by linarith [hN.sep_pos]
      intro sp
      cases sp with
      | deuterium =>
        simp only [density, plasma, idealPlasma]; rw [ideal_fraction e]; exact mul_nonneg (div_nonneg hd hS.le) n0
      | tritium =>
        simp only [density, plasma, idealPlasma]; rw [ideal_fraction e]; exact mul_nonneg (div_nonneg ht hS.le) n0
      | helium3 =>
        simp only [density, plasma, idealPlasma]; rw [ideal_fraction e]; exact mul_nonneg (div_nonneg hh hS.le) n0
    · obtain ⟨T, e, l, -⟩ := bT' (psi p.1 p.2)
      simp only [temperatureAt, plasma, idealPlasma, valueAt, e]; linarith
    · obtain ⟨T, e, -, l⟩ := bT' (psi p.1 p.2)
      simp only [temperatureAt, plasma, idealPlasma, valueAt, e]; linarith
  have hag : ∀ p ∈ centres s, CellAgrees δ ((Transport.fromParameterisationsR binary64 temp fuel c).viewR binary64 F) psi'
      plasma psi p := fun p hp' =>
    C104_cell hd ht hh hS (by positivity) (by linarith) (hround _) (hrad hT hbT hrT (hx p hp').2)
      (hrad hN hbN hrN (hx p hp').2) (pT' _) (pN' _)
  have H := C104_strengths (K := 5300) C74_binary64 hpi hQ (by positivity) hacc (by norm_num)
    (fun r _ => C104_reference hm method r hδ0 (by linarith)) hδ0 (by linarith) (by linarith) hin hag hP hs
    (hε.trans (by norm_num))
  intro r hr
  have h1 := H.2 r hr
  refine h1.imp fun a p hap => ?_
  have hq : 0 ≤ P * cellRate (referenceReactivity U m method) plasma psi L r p /
      cellsPower (referenceReactivity U m method) Q plasma psi L (centres s) s.sourceType := by
    by_contra hneg
    push Not at hneg
    have k : 0 < 1.01 * (2.3 * (165000 * (4 * (2 : ℝ) ^ (-53 : ℤ))) +
      3 * ((cells s : ℝ) + s.sourceType.length + 14) * (2 : ℝ) ^ (-53 : ℤ)) + 2.01 * ((5300 + 3) * δ) := by positivity
    have := (abs_nonneg _).trans hap
    have := mul_neg_of_pos_of_neg k hneg
    linarith
  refine le_trans hap (mul_le_mul_of_nonneg_right ?_ hq)
  linarith

end
end TNS
