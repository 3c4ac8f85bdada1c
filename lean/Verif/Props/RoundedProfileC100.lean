import Verif.Props.RoundedProfile
import Verif.Props.Conditioning
import Verif.Props.RoundedMake
/-
C100: from profile parameters to source strengths in floating point.
-/

set_option autoImplicit false

namespace TNS
open Spec
noncomputable section

section
variable {A : Arith} {F : MathLib} {u v : ℝ}

/-- C100.  Computed fuel fractions: each is right to `4 u`, so they add up to 1 within `4 u`. -/
theorem C100_composition (hA : StandardModel A u) (hu : u ≤ 1 / 1000) {d t h : ℝ} (hd : 0 ≤ d) (ht : 0 ≤ t) (hh : 0 ≤ h)
    (hS : 0 < d + t + h) :
    ∃ c, Composition.makeR A d t h = .ok c ∧ |c.D - d / (d + t + h)| ≤ 4 * u * (d / (d + t + h)) ∧
      |c.T - t / (d + t + h)| ≤ 4 * u * (t / (d + t + h)) ∧ |c.He3 - h / (d + t + h)| ≤ 4 * u * (h / (d + t + h)) ∧
      |c.D + c.T + c.He3 - 1| ≤ 4 * u := by
  have u0 := hA.u_nonneg
  have hn := near_addsUp hA hA.pySum [d, t, h] (by simp; exact ⟨hd, ht, hh⟩)
  have es : [d, t, h].sum = d + t + h := by simp; ring
  rw [es] at hn
  have l := LC.of_near u0 (by linarith) hS hn
  have l1 : LC (2.04 * u) (A.pySum [d, t, h]) (d + t + h) := by
    refine l.mono ?_
    simp only [List.length_cons, List.length_nil]
    norm_num
    linarith
  set S := d + t + h
  set S' := A.pySum [d, t, h] with hS'
  -- one fraction
  have key : ∀ x, 0 ≤ x → |A.rd (x / S') - x / S| ≤ 4 * u * (x / S) := by
    intro x hx
    rcases hx.eq_or_lt with h | h
    · rw [← h, zero_div, zero_div, rd_zero' hA]; simp
    · have l2 := LC.round hA (show u ≤ 1 / 100 by linarith) (le_refl _) ((LC.refl h).div l1)
      have l3 := l2.rel (by linarith)
      refine l3.trans (mul_le_mul_of_nonneg_right (by linarith) l2.2.1.le)
  have total : ∀ a b c : ℝ, |a - d / S| ≤ 4 * u * (d / S) → |b - t / S| ≤ 4 * u * (t / S) →
      |c - h / S| ≤ 4 * u * (h / S) → |a + b + c - 1| ≤ 4 * u := by
    intro a b c h1 h2 h3
    have e1 : d / S + t / S + h / S = 1 := by
      rw [← add_div, ← add_div]; exact div_self hS.ne'
    have e2 : a + b + c - 1 = (a - d / S) + (b - t / S) + (c - h / S) := by linarith
    rw [e2]
    refine (abs_add_three _ _ _).trans ?_
    have : 4 * u * (d / S) + 4 * u * (t / S) + 4 * u * (h / S) = 4 * u * (d / S + t / S + h / S) := by ring
    rw [e1, mul_one] at this
    linarith
  unfold Composition.makeR
  rw [← hS']
  by_cases h1 : S' = 1
  · rw [if_neg (by simpa using h1)]
    have one : ∀ x, 0 ≤ x → |x - x / S| ≤ 4 * u * (x / S) := by
      intro x hx
      have l2 := l1.rel (by linarith)
      rw [h1] at l2
      have e : x - x / S = (x / S) * (S - 1) := by field_simp
      have q : 0 ≤ x / S := div_nonneg hx hS.le
      rw [e, abs_mul, abs_of_nonneg q, mul_comm]
      refine mul_le_mul_of_nonneg_right ?_ q
      rw [abs_sub_comm]
      refine l2.trans ?_
      have : S ≤ 1.01 := by
        have := (abs_le.1 l2).1
        nlinarith
      nlinarith
    exact ⟨_, rfl, one d hd, one t ht, one h hh, total _ _ _ (one d hd) (one t ht) (one h hh)⟩
  · rw [if_pos h1, if_neg l1.1.ne']
    exact ⟨_, rfl, key d hd, key t ht, key h hh, total _ _ _ (key d hd) (key t ht) (key h hh)⟩

/-- C100.  Parabolic shape. -/
theorem C100_agree_parabolic (hA : StandardModel A u) (hF : AccurateLib F v) (huv : u ≤ v) {core alpha beta : ℝ}
    (hc : 0 < core) (ha : 0 < alpha) (hb : 0 < beta) (rho : ℝ)
    (hf : 0 < 1 - clamped rho ^ beta) (hsmall : (5 + 5 * (1 + alpha) / (1 - clamped rho ^ beta)) * v ≤ 1 / 100) :
    ProfileAgrees A F ((5 + 5 * (1 + alpha) / (1 - clamped rho ^ beta)) * v) (.parabolic core alpha beta) rho := by
  intro scale hs
  have e : parabolicValue core alpha beta rho = parabola core alpha beta rho := by
    rw [C36_formula _ _ _ _ ha hb, clip_eq_clamped]; rfl
  rcases hs.eq_or_lt with h | h
  · refine ⟨_, _, rfl, rfl, ?_⟩
    rw [← h, zero_mul, zero_mul, rd_zero' hA]; simp
  · obtain ⟨y, h1, -, h2⟩ := C100_parabolic hA hF huv hc ha hb h rho hf hsmall
    refine ⟨y, _, h1, rfl, ?_⟩
    rw [e]; exact h2

/-- C100.  Pedestal shape with `0 < sep ≤ ped ≤ core`. -/
theorem C100_agree_pedestal (hA : StandardModel A u) (hF : AccurateLib F v) (hF0 : PowZero F) (huv : u ≤ v)
    (hv : v ≤ 1 / 1000) {core ped sep alpha beta rp : ℝ} (ha : 0 < alpha) (hb : 0 < beta) (hr0 : 0 < rp) (hr1 : rp < 1)
    (hbv : (1 + beta) * v ≤ 1 / 500) (hav : alpha * (3 * (1 + beta) * v) ≤ 1 / 100)
    (hs : 0 < sep) (hps : sep ≤ ped) (hcp : ped ≤ core) (rho : ℝ) :
    ProfileAgrees A F ((8 * v + 2 * powLoss alpha (3 * (1 + beta) * v)) * (2 * core / sep))
      (.pedestal core ped sep alpha beta rp) rho := by
  intro scale hsc
  have v0 := hA.u_nonneg.trans huv
  have pl := powLoss_nonneg (h := 3 * (1 + beta) * v) ha (by positivity)
  have e : pedestalValue core ped sep alpha beta rp rho = parabolaOnPedestal core ped sep alpha beta rp rho := by
    rw [C37_formula core ped sep alpha beta rp ha hb hr0 hr1, clip_eq_clamped]
    unfold parabolaOnPedestal
    split_ifs <;> ring
  have hlow := (C37_bounds core ped sep alpha beta rp ha hb hr0 hr1 hcp hps rho).1
  rw [e] at hlow
  have hsh : 0 < parabolaOnPedestal core ped sep alpha beta rp rho := by linarith
  have key : ∀ E, 0 ≤ E → E ≤ 8 * v + 2 * powLoss alpha (3 * (1 + beta) * v) → ∀ M, 0 ≤ M → M ≤ 2 * core →
      E * (|scale| * M) ≤ (8 * v + 2 * powLoss alpha (3 * (1 + beta) * v)) * (2 * core / sep) *
        (parabolaOnPedestal core ped sep alpha beta rp rho * scale) := by
    intro E hE0 hE M hM0 hM
    rw [abs_of_nonneg hsc]
    have q : 0 ≤ 2 * core / sep := by
      have : 0 ≤ core := by linarith
      positivity
    have q2 : 2 * core ≤ 2 * core / sep * parabolaOnPedestal core ped sep alpha beta rp rho := by
      calc 2 * core = 2 * core / sep * sep := by field_simp
        _ ≤ _ := mul_le_mul_of_nonneg_left hlow q
    calc E * (scale * M) ≤ (8 * v + 2 * powLoss alpha (3 * (1 + beta) * v)) *
          (scale * (2 * core / sep * parabolaOnPedestal core ped sep alpha beta rp rho)) :=
          mul_le_mul hE (mul_le_mul_of_nonneg_left (hM.trans q2) hsc) (by positivity) (by positivity)
      _ = _ := by ring
  by_cases hr : clamped rho < rp
  · obtain ⟨y, h1, h2⟩ := C100_pedestal_core (core := core) (ped := ped) (sep := sep) (scale := scale) hA hF hF0 huv hv ha hb
      hr1.le hbv hav rho hr
    refine ⟨y, _, h1, rfl, ?_⟩
    rw [e]
    rw [mul_comm scale] at h2
    refine h2.trans (key _ (by positivity) (by linarith) _ (by positivity) ?_)
    rw [abs_of_nonneg (by linarith), abs_of_nonneg (by linarith)]
    linarith
  · push Not at hr
    obtain ⟨y, h1, h2⟩ := C100_pedestal_edge (F := F) (core := core) (ped := ped) (sep := sep) (alpha := alpha) (beta := beta)
      (scale := scale) hA huv hv hr0.le hr1 rho hr
    refine ⟨y, _, h1, rfl, ?_⟩
    rw [e]
    rw [mul_comm scale] at h2
    refine h2.trans (key _ (by positivity) (by linarith) _ (by positivity) ?_)
    rw [abs_of_nonneg (by linarith), abs_of_nonneg (by linarith)]
    linarith

theorem npInterp_lower {m : ℝ} (table : List (ℝ × ℝ)) (x : ℝ) (hne : table ≠ []) (ht : ∀ p ∈ table, m ≤ p.2) :
    m ≤ npInterp table x := by
  induction table with
  | nil => exact absurd rfl hne
  | cons p l ih =>
    cases l with
    | nil => exact ht p (by simp)
    | cons q l =>
      have p0 := ht p (by simp)
      have q0 := ht q (by simp)
      simp only [npInterp]
      split_ifs with h1 h2
      · exact p0
      · push Not at h2
        have hpq : p.1 < q.1 := lt_of_le_of_lt h2 h1
        set r := (x - p.1) / (q.1 - p.1) with hr
        have r0 : 0 ≤ r := div_nonneg (by linarith) (by linarith)
        have r1 : r ≤ 1 := (div_le_one (by linarith)).2 (by linarith)
        have e0 : (q.2 - p.2) / (q.1 - p.1) * (x - p.1) + p.2 = q.2 * r + p.2 * (1 - r) := by
          rw [hr]
          have : q.1 - p.1 ≠ 0 := by linarith
          field_simp
          ring
        rw [e0]
        nlinarith
      · exact ih (by simp) fun r hr => ht r (List.mem_cons_of_mem _ hr)

theorem data_value_eq {table : List (ℝ × ℝ)} {scale rho y : ℝ} (h : (Profile.mk (.data table) scale).value rho = .ok y) :
    table ≠ [] ∧ y = scale * npInterp (table.mergeSort fun p q => decide (p.1 ≤ q.1)) (clip 0 1 rho) := by
  constructor
  · rintro rfl
    simp [Profile.value, dataValue, interp1d, Bind.bind, Except.bind] at h
  · simp only [Profile.value, dataValue, interp1d] at h
    generalize table.mergeSort (fun p q : ℝ × ℝ => decide (p.1 ≤ q.1)) = l at h ⊢
    generalize clip 0 1 rho = x at h ⊢
    cases h1 : l.head? with
    | none => simp [h1, Bind.bind, Except.bind] at h
    | some a =>
      cases h2 : l.getLast? with
      | none => simp [h1, h2, Bind.bind, Except.bind] at h
      | some b =>
        simp only [h1, h2] at h
        split_ifs at h with h3
        · cases h
        · have : (Except.ok (scale * npInterp l x) : Except Err ℝ) = .ok y := h
          cases this; rfl

/-- C100.  Tabulated shape with values between `m > 0` and `M`, at a radius inside the table. -/
theorem C100_agree_data (hA : StandardModel A u) (huv : u ≤ v) (hv : v ≤ 1 / 1000) {m M : ℝ} (hm : 0 < m)
    (table : List (ℝ × ℝ)) (rho : ℝ) (ht : ∀ p ∈ table, m ≤ p.2 ∧ p.2 ≤ M)
    (hin : ∃ y, (Profile.mk (.data table) 1).value rho = .ok y) :
    ProfileAgrees A F (8 * v * (M / m)) (.data table) rho := by
  intro scale hs
  have v0 := hA.u_nonneg.trans huv
  obtain ⟨y1, hy1⟩ := hin
  have hne := (data_value_eq hy1).1
  obtain ⟨p, hp⟩ := List.exists_mem_of_ne_nil _ hne
  have hM : 0 ≤ M := by linarith [(ht p hp).1, (ht p hp).2]
  -- the exact value exists for every scale
  obtain ⟨y, hy⟩ : ∃ y, (Profile.mk (.data table) scale).value rho = .ok y := by
    simp only [Profile.value, dataValue] at hy1 ⊢
    cases h : interp1d table (clip 0 1 rho) with
    | error e => rw [h] at hy1; cases hy1
    | ok w => exact ⟨_, rfl⟩
  obtain ⟨y', h1, h2⟩ := (C100_data (F := F) (scale := scale) hA huv hv hM table rho
    fun p hp => ⟨hm.le.trans (ht p hp).1, (ht p hp).2⟩).2 y hy
  refine ⟨y', y, h1, hy, h2.trans ?_⟩
  have e := (data_value_eq hy).2
  have low : m ≤ npInterp (table.mergeSort fun p q => decide (p.1 ≤ q.1)) (clip 0 1 rho) :=
    npInterp_lower _ _ (by
      intro h
      have := List.mem_mergeSort (le := fun p q : ℝ × ℝ => decide (p.1 ≤ q.1)) |>.2 hp
      rw [h] at this
      cases this) fun p hp => (ht p (List.mem_mergeSort.1 hp)).1
  rw [e, abs_of_nonneg hs]
  generalize npInterp (table.mergeSort fun p q => decide (p.1 ≤ q.1)) (clip 0 1 rho) = w at low ⊢
  have q2 : M ≤ M / m * w := by
    calc M = M / m * m := by field_simp
      _ ≤ _ := mul_le_mul_of_nonneg_left low (by positivity)
  calc 8 * v * (scale * M) ≤ 8 * v * (scale * (M / m * w)) :=
        mul_le_mul_of_nonneg_left (mul_le_mul_of_nonneg_left q2 hs) (by positivity)
    _ = _ := by ring

theorem value_scale (kind : ProfileKind) (scale rho : ℝ) :
    (Profile.mk kind scale).value rho = ((Profile.mk kind 1).value rho).map fun n => scale * n := by
  cases kind with
  | data table =>
    simp only [Profile.value, dataValue]
    cases h : interp1d table (clip 0 1 rho) with
    | error e => rfl
    | ok w => simp [Bind.bind, Except.bind, Except.map]
  | parabolic core a b => simp [Profile.value, Except.map]
  | pedestal core ped sep a b rp => simp [Profile.value, Except.map, mul_comm]

/-- A change of the scale. -/
theorem agree_scaled (hA : StandardModel A u) (huv : u ≤ v) {δ : ℝ} (hδ0 : 0 ≤ δ) (hδ : δ ≤ 1 / 10) (hv : v ≤ 1 / 1000)
    {fuel : Profile} (hf : 0 ≤ fuel.scale) {rho : ℝ} (h : ProfileAgrees A F δ fuel.kind rho)
    (hpos : ∀ y, (Profile.mk fuel.kind 1).value rho = .ok y → 0 ≤ y) {c' c : ℝ} (hc : 0 ≤ c) (hcc : |c' - c| ≤ 4 * v * c) :
    AgreeAt (δ + 6 * v) ((fuel.setScaleR A c').valueR A F) (fun r => (fuel.value r).map fun n => c * n) rho := by
  have v0 := hA.u_nonneg.trans huv
  have c'0 : 0 ≤ c' := by
    have := (abs_le.1 hcc).1
    nlinarith
  have c'1 : c' ≤ (1 + 4 * v) * c := by
    have := (abs_le.1 hcc).2
    linarith
  obtain ⟨y', y, h1, h2, h3⟩ := h (A.rd (fuel.scale * c')) (rd_nonneg hA (mul_nonneg hf c'0))
  obtain ⟨kind, scale⟩ := fuel
  simp only at h1 h2 hf hpos h3
  rw [value_scale] at h2
  cases hw : (Profile.mk kind 1).value rho with
  | error e => rw [hw] at h2; cases h2
  | ok w =>
    rw [hw] at h2
    have hy : A.rd (scale * c') * w = y := by
      have : (Except.ok (A.rd (scale * c') * w) : Except Err ℝ) = .ok y := h2
      cases this; rfl
    have w0 := hpos w hw
    refine ⟨y', c * (scale * w), h1, ?_, ?_⟩
    · simp only
      rw [value_scale, hw]; rfl
    · have r1 : |A.rd (scale * c') - scale * c| ≤ 5.1 * v * (scale * c) := by
        have m : |scale * c' - scale * c| ≤ 4 * v * (scale * c) := by
          rw [← mul_sub, abs_mul, abs_of_nonneg hf]
          have := mul_le_mul_of_nonneg_left hcc hf
          linarith
        have sc := mul_nonneg hf hc
        have := rd_absv hA huv m (show |scale * c| ≤ scale * c by rw [abs_of_nonneg sc])
        have e : (1 + v) * (4 * v * (scale * c)) + v * (scale * c) = ((1 + v) * (4 * v) + v) * (scale * c) := by ring
        rw [e] at this
        exact this.trans (mul_le_mul_of_nonneg_right (by nlinarith) sc)
      have sw : 0 ≤ scale * c * w := mul_nonneg (mul_nonneg hf hc) w0
      have r2 : |y - c * (scale * w)| ≤ 5.1 * v * (scale * c * w) := by
        rw [← hy, show A.rd (scale * c') * w - c * (scale * w) = (A.rd (scale * c') - scale * c) * w by ring, abs_mul,
          abs_of_nonneg w0]
        have := mul_le_mul_of_nonneg_right r1 w0
        linarith
      have r3 : y ≤ (1 + 5.1 * v) * (scale * c * w) := by
        have := (abs_le.1 r2).2
        linarith
      have e : y' - c * (scale * w) = (y' - y) + (y - c * (scale * w)) := by ring
      rw [e]
      refine (abs_add_le _ _).trans ?_
      have m1 := mul_le_mul_of_nonneg_left r3 hδ0
      have m2 : δ * ((1 + 5.1 * v) * (scale * c * w)) + 5.1 * v * (scale * c * w) ≤ (δ + 6 * v) * (scale * c * w) := by
        have : δ * ((1 + 5.1 * v) * (scale * c * w)) + 5.1 * v * (scale * c * w) =
          (δ * (1 + 5.1 * v) + 5.1 * v) * (scale * c * w) := by ring
        rw [this]
        refine mul_le_mul_of_nonneg_right ?_ sw
        nlinarith
      have : c * (scale * w) = scale * c * w := by ring
      rw [this] at r2 ⊢
      linarith

/-- C100.  A plasma made by `from_parameterisations` from profiles evaluated to the accuracy `δ` has all its densities and
its temperature right to `δ + 6 v`. -/
theorem C100_parameterised (hA : StandardModel A u) (huv : u ≤ v) {δ : ℝ} (hδ0 : 0 ≤ δ) (hδ : δ ≤ 1 / 10)
    (hv : v ≤ 1 / 1000) {d t h : ℝ} (hd : 0 ≤ d) (ht : 0 ≤ t) (hh : 0 ≤ h) (hS : 0 < d + t + h)
    {temp fuel : Profile} (hf : 0 ≤ fuel.scale) (htp : 0 ≤ temp.scale) {rho : ℝ} (h1 : ProfileAgrees A F δ fuel.kind rho)
    (h2 : ProfileAgrees A F δ temp.kind rho) (hpos : ∀ y, (Profile.mk fuel.kind 1).value rho = .ok y → 0 ≤ y)
    (hpos' : ∀ y, (Profile.mk temp.kind 1).value rho = .ok y → 0 ≤ y) :
    ∃ c, Composition.makeR A d t h = .ok c ∧
      PlasmaAgrees (δ + 6 * v) ((Transport.fromParameterisationsR A temp fuel c).viewR A F)
        (idealPlasma temp.value fuel.value d t h) rho := by
  have v0 := hA.u_nonneg.trans huv
  obtain ⟨c, hc, cd, ct, ch, -⟩ := C100_composition hA (huv.trans hv) hd ht hh hS
  have up : ∀ {a b : ℝ}, 0 ≤ b → |a - b| ≤ 4 * u * b → |a - b| ≤ 4 * v * b := fun hb h =>
    h.trans (mul_le_mul_of_nonneg_right (by linarith) hb)
  have nd : ∀ {x : ℝ}, 0 ≤ x → 0 ≤ x / (d + t + h) := fun hx => div_nonneg hx hS.le
  refine ⟨c, hc, ?_, agree_scaled hA huv hδ0 hδ hv hf h1 hpos (nd hd) (up (nd hd) cd),
    agree_scaled hA huv hδ0 hδ hv hf h1 hpos (nd ht) (up (nd ht) ct),
    agree_scaled hA huv hδ0 hδ hv hf h1 hpos (nd hh) (up (nd hh) ch)⟩
  obtain ⟨y', y, a, b, e⟩ := h2 temp.scale htp
  refine ⟨y', y, a, b, e.trans (mul_le_mul_of_nonneg_right (by linarith) ?_)⟩
  have b' : (Profile.mk temp.kind temp.scale).value rho = .ok y := b
  rw [value_scale] at b'
  cases hw : (Profile.mk temp.kind 1).value rho with
  | error e => rw [hw] at b'; cases b'
  | ok w =>
    rw [hw] at b'
    have : (Except.ok (temp.scale * w) : Except Err ℝ) = .ok y := b'
    cases this
    exact mul_nonneg htp (hpos' w hw)

end

end
end TNS
