import Verif.Props.RoundedProfileTable
/-
C100: computed profiles never increase outwards and keep their bounds; exact arithmetic; double precision.
-/

set_option autoImplicit false

namespace TNS
open Spec
noncomputable section

section
variable {A : Arith} {F : MathLib}

theorem pow_mem (h : OrderPreserving A F) {y : ℝ} (hy : 0 < y) {x : ℝ} (x0 : 0 ≤ x) (x1 : x ≤ 1) :
    0 ≤ F.pow x y ∧ F.pow x y ≤ 1 :=
  ⟨(h.zero y hy).ge.trans (h.pow y hy 0 x le_rfl x0), (h.pow y hy x 1 x0 x1).trans (h.one y hy).le⟩

theorem rd_mem (h : OrderPreserving A F) {x : ℝ} (x0 : 0 ≤ x) (x1 : x ≤ 1) : 0 ≤ A.rd x ∧ A.rd x ≤ 1 :=
  ⟨h.rd_zero.ge.trans (h.rd x0), (h.rd x1).trans h.rd_one.le⟩

theorem factor_order (h : OrderPreserving A F) {beta : ℝ} (hb : 0 < beta) (rho : ℝ) :
    parabolicFactorR A F beta rho = A.rd (1 - A.rd (F.pow (clamped rho) beta)) ∧
    0 ≤ parabolicFactorR A F beta rho ∧ parabolicFactorR A F beta rho ≤ 1 := by
  obtain ⟨c0, c1⟩ := clamped_mem rho
  have e : parabolicFactorR A F beta rho = A.rd (1 - A.rd (F.pow (clamped rho) beta)) := by
    unfold parabolicFactorR
    rw [clip_eq_clamped]
    rcases c0.eq_or_lt with hx | hx
    · rw [← hx, sign_zero, SignType.coe_zero, zero_mul, h.zero beta hb]
    · rw [sign_pos hx, abs_of_pos hx, SignType.coe_one, one_mul]
  refine ⟨e, ?_⟩
  rw [e]
  obtain ⟨p0, p1⟩ := pow_mem h hb c0 c1
  obtain ⟨q0, q1⟩ := rd_mem h p0 p1
  exact rd_mem h (by linarith) (by linarith)

theorem clamped_mono {x y : ℝ} (h : x ≤ y) : clamped x ≤ clamped y := max_le_max le_rfl (min_le_min_right _ h)

theorem parabolicValueR_order (h : OrderPreserving A F) {core alpha beta : ℝ} (ha : 0 < alpha) (hb : 0 < beta)
    (rho : ℝ) :
    parabolicValueR A F core alpha beta rho =
      A.rd (A.rd core * F.pow (A.rd (1 - A.rd (F.pow (clamped rho) beta))) alpha) := by
  obtain ⟨e, f0, f1⟩ := factor_order h hb rho
  unfold parabolicValueR
  rcases f0.eq_or_lt with hf | hf
  · rw [← e, ← hf, sign_zero, SignType.coe_zero, mul_zero, h.rd_zero, zero_mul, h.zero alpha ha, mul_zero]
  · rw [sign_pos hf, abs_of_pos hf, SignType.coe_one, mul_one, e]

/-- C100.  A computed parabolic profile never increases outwards and is never negative; on the axis it is the core value
and at the edge it is 0, exactly. -/
theorem C100_order_parabolic (h : OrderPreserving A F) {core alpha beta scale : ℝ} (hc : 0 ≤ core) (hs : 0 ≤ scale)
    (ha : 0 < alpha) (hb : 0 < beta) :
    (∀ rho rho', rho ≤ rho' → ∃ y y', (Profile.mk (.parabolic core alpha beta) scale).valueR A F rho = .ok y ∧
      (Profile.mk (.parabolic core alpha beta) scale).valueR A F rho' = .ok y' ∧ 0 ≤ y' ∧ y' ≤ y) ∧
    (A.rd core = core → ∀ rho ≤ 0, (Profile.mk (.parabolic core alpha beta) 1).valueR A F rho = .ok core) ∧
    (∀ rho ≥ 1, (Profile.mk (.parabolic core alpha beta) scale).valueR A F rho = .ok 0) := by
  have c0 : 0 ≤ A.rd core := h.rd_zero.ge.trans (h.rd hc)
  refine ⟨fun r r' hr => ⟨_, _, rfl, rfl, ?_, ?_⟩, fun hcr r hr => ?_, fun r hr => ?_⟩
  · rw [parabolicValueR_order h ha hb]
    obtain ⟨e, f0, f1⟩ := factor_order h hb r'
    rw [← e]
    have := pow_mem h ha f0 f1
    refine h.rd_zero.ge.trans (h.rd (mul_nonneg hs (h.rd_zero.ge.trans (h.rd (mul_nonneg c0 this.1)))))
  · rw [parabolicValueR_order h ha hb, parabolicValueR_order h ha hb]
    obtain ⟨e, f0, f1⟩ := factor_order h hb r
    obtain ⟨e', f0', f1'⟩ := factor_order h hb r'
    refine h.rd (mul_le_mul_of_nonneg_left (h.rd (mul_le_mul_of_nonneg_left ?_ c0)) hs)
    refine h.pow alpha ha _ _ (e' ▸ f0') (h.rd ?_)
    have := h.rd (h.pow beta hb _ _ (clamped_mem r).1 (clamped_mono hr))
    linarith
  · have e : clamped r = 0 := by rw [← clip_eq_clamped]; exact clip_le r hr
    simp only [Profile.valueR]
    rw [parabolicValueR_order h ha hb, e, h.zero beta hb, h.rd_zero, sub_zero, h.rd_one, h.one alpha ha, mul_one, hcr, hcr,
      one_mul, hcr]
  · have e : clamped r = 1 := by rw [← clip_eq_clamped]; exact clip_ge r hr
    simp only [Profile.valueR]
    rw [parabolicValueR_order h ha hb, e, h.one beta hb, h.rd_one, sub_self, h.rd_zero, h.zero alpha ha, mul_zero, h.rd_zero,
      mul_zero, h.rd_zero]

/-- C100.  A computed pedestal profile with `sep ≤ ped ≤ core` never increases outwards inside the pedestal nor outside
it, and stays above the (scaled) pedestal value inside and above the separatrix value outside. -/
theorem C100_order_pedestal (h : OrderPreserving A F) {core ped sep alpha beta rp : ℝ} (hcp : ped ≤ core) (hps : sep ≤ ped)
    (ha : 0 < alpha) (hb : 0 < beta) (hr0 : 0 < rp) (hr1 : rp < 1) :
    (∀ rho rho', rho ≤ rho' → clamped rho' < rp →
      A.rd ped ≤ pedestalValueR A F core ped sep alpha beta rp rho' ∧
      pedestalValueR A F core ped sep alpha beta rp rho' ≤ pedestalValueR A F core ped sep alpha beta rp rho) ∧
    (∀ rho rho', rho ≤ rho' → rp ≤ clamped rho →
      A.rd sep ≤ pedestalValueR A F core ped sep alpha beta rp rho' ∧
      pedestalValueR A F core ped sep alpha beta rp rho' ≤ pedestalValueR A F core ped sep alpha beta rp rho) := by
  have nn : ∀ {x : ℝ}, 0 ≤ x → 0 ≤ A.rd x := fun hx => h.rd_zero.ge.trans (h.rd hx)
  constructor
  · intro r r' hr hin
    have hin' := lt_of_le_of_lt (clamped_mono hr) hin
    have c0 := (clamped_mem r).1
    unfold pedestalValueR
    rw [clip_of_mem rp hr0.le hr1.le, clip_eq_clamped, clip_eq_clamped, if_pos hin, if_pos hin']
    unfold pedestalCoreR
    have d0 : 0 ≤ A.rd (core - ped) := nn (by linarith)
    have t0 := clip_mem (A.rd (1 - F.pow (A.rd (clamped r' / rp)) beta))
    constructor
    · refine h.rd ?_
      have := nn (mul_nonneg d0 (pow_mem h ha t0.1 t0.2).1)
      linarith
    · refine h.rd (add_le_add_right (h.rd (mul_le_mul_of_nonneg_left (h.pow alpha ha _ _ t0.1 ?_) d0)) _)
      refine clip_mono _ _ (h.rd ?_)
      have q := h.rd (div_le_div_of_nonneg_right (clamped_mono hr) hr0.le)
      have := h.pow beta hb _ _ (nn (div_nonneg c0 hr0.le)) q
      linarith
  · intro r r' hr hout
    have hout' := hout.trans (clamped_mono hr)
    have c1 := (clamped_mem r').2
    unfold pedestalValueR
    rw [clip_of_mem rp hr0.le hr1.le, clip_eq_clamped, clip_eq_clamped, if_neg (not_lt.2 hout), if_neg (not_lt.2 hout')]
    unfold pedestalEdgeR
    rw [if_neg hr1.ne, if_neg hr1.ne]
    have d0 : 0 ≤ A.rd (ped - sep) := nn (by linarith)
    have b0 : 0 ≤ A.rd (1 - rp) := nn (by linarith)
    constructor
    · refine h.rd ?_
      have := nn (div_nonneg (nn (mul_nonneg d0 (nn (show 0 ≤ 1 - clamped r' by linarith)))) b0)
      linarith
    · refine h.rd (add_le_add_right (h.rd (div_le_div_of_nonneg_right (h.rd (mul_le_mul_of_nonneg_left (h.rd ?_) d0)) b0)) _)
      linarith [clamped_mono hr]

end

/-- C100.  With exact arithmetic and exact library functions the model is the exact one. -/
theorem C100_exact (p : Profile) (rho d t h : ℝ) :
    p.valueR exactArith exactLib rho = p.value rho ∧ Composition.makeR exactArith d t h = Composition.make d t h := by
  have rdid : ∀ x, exactArith.rd x = x := fun _ => rfl
  constructor
  · obtain ⟨kind, scale⟩ := p
    cases kind with
    | data table => simp only [Profile.valueR, Profile.value, dataValueR, dataValue, interp1dR_exact, rdid]
    | parabolic core a b =>
      simp only [Profile.valueR, Profile.value, parabolicValueR, parabolicFactorR, parabolicValue, rdid, exactLib]
    | pedestal core ped sep a b rp =>
      simp only [Profile.valueR, Profile.value, pedestalValueR, pedestalCoreR, pedestalEdgeR, pedestalValue, rdid, exactLib]
  · have e : exactArith.pySum [d, t, h] = d + t + h := by
      show List.sum [d, t, h] = _
      simp; ring
    unfold Composition.makeR Composition.make
    simp only [e, rdid]

/-! ### Double precision -/

theorem round_mono' {a b : ℝ} (h : a ≤ b) : (round a : ℝ) ≤ round b := by
  rw [round_eq, round_eq]
  exact_mod_cast Int.floor_mono (by linarith)

theorem binade (k : ℤ) : (2 : ℝ) ^ k = ((4503599627370496 : ℤ) : ℝ) * (2 : ℝ) ^ (k - 52) ∧
    (2 : ℝ) ^ (k + 1) = ((9007199254740992 : ℤ) : ℝ) * (2 : ℝ) ^ (k - 52) := by
  have e1 : ((4503599627370496 : ℤ) : ℝ) = (2 : ℝ) ^ (52 : ℤ) := by norm_num
  have e2 : ((9007199254740992 : ℤ) : ℝ) = (2 : ℝ) ^ (53 : ℤ) := by norm_num
  rw [e1, e2, ← zpow_add₀ (by norm_num), ← zpow_add₀ (by norm_num)]
  constructor
  · rw [show 52 + (k - 52) = k by ring]
  · rw [show 53 + (k - 52) = k + 1 by ring]

theorem log_bounds {x : ℝ} (hx : 0 < x) : (2 : ℝ) ^ Int.log 2 x ≤ x ∧ x < (2 : ℝ) ^ (Int.log 2 x + 1) :=
  ⟨by exact_mod_cast Int.zpow_log_le_self (b := 2) (by norm_num) hx,
    by exact_mod_cast Int.lt_zpow_succ_log_self (b := 2) (by norm_num) x⟩

theorem round53_pos_bounds {x : ℝ} (hx : 0 < x) :
    (2 : ℝ) ^ Int.log 2 x ≤ round53 x ∧ round53 x ≤ (2 : ℝ) ^ (Int.log 2 x + 1) := by
  obtain ⟨lo, hi⟩ := log_bounds hx
  unfold round53
  rw [abs_of_pos hx]
  set k := Int.log 2 x
  obtain ⟨e1, e2⟩ := binade k
  have hepos : (0 : ℝ) < (2 : ℝ) ^ (k - 52) := zpow_pos (by norm_num) _
  rw [e1] at lo ⊢
  rw [e2] at hi ⊢
  have r1 := round_mono' (show ((4503599627370496 : ℤ) : ℝ) ≤ x / (2 : ℝ) ^ (k - 52) by
    rw [le_div_iff₀ hepos]; exact lo)
  have r2 := round_mono' (show x / (2 : ℝ) ^ (k - 52) ≤ ((9007199254740992 : ℤ) : ℝ) by
    rw [div_le_iff₀ hepos]; exact hi.le)
  rw [round_intCast] at r1 r2
  exact ⟨mul_le_mul_of_nonneg_right r1 hepos.le, mul_le_mul_of_nonneg_right r2 hepos.le⟩

theorem round53_neg_bounds {x : ℝ} (hx : x < 0) :
    -(2 : ℝ) ^ (Int.log 2 (-x) + 1) ≤ round53 x ∧ round53 x ≤ -(2 : ℝ) ^ Int.log 2 (-x) := by
  obtain ⟨lo, hi⟩ := log_bounds (neg_pos.2 hx)
  unfold round53
  rw [abs_of_neg hx]
  set k := Int.log 2 (-x)
  obtain ⟨e1, e2⟩ := binade k
  have hepos : (0 : ℝ) < (2 : ℝ) ^ (k - 52) := zpow_pos (by norm_num) _
  rw [e1] at lo ⊢
  rw [e2] at hi ⊢
  have r1 := round_mono' (show x / (2 : ℝ) ^ (k - 52) ≤ ((-4503599627370496 : ℤ) : ℝ) by
    rw [div_le_iff₀ hepos]; push_cast at lo ⊢; linarith)
  have r2 := round_mono' (show ((-9007199254740992 : ℤ) : ℝ) ≤ x / (2 : ℝ) ^ (k - 52) by
    rw [le_div_iff₀ hepos]; push_cast at hi ⊢; linarith)
  rw [round_intCast] at r1 r2
  have m1 := mul_le_mul_of_nonneg_right r1 hepos.le
  have m2 := mul_le_mul_of_nonneg_right r2 hepos.le
  push_cast at m1 m2 ⊢
  exact ⟨by linarith, by linarith⟩

/-- C100.  Rounding to 53 binary digits never reverses an order. -/
theorem C100_binary64_order : Monotone round53 := by
  have z : round53 0 = 0 := by simp [round53]
  intro x y hxy
  rcases hxy.eq_or_lt with rfl | hlt
  · exact le_rfl
  have same : ∀ {a b : ℝ}, a ≤ b → Int.log 2 |a| = Int.log 2 |b| → round53 a ≤ round53 b := by
    intro a b hab hk
    unfold round53
    rw [hk]
    have hepos : (0 : ℝ) < (2 : ℝ) ^ (Int.log 2 |b| - 52) := zpow_pos (by norm_num) _
    exact mul_le_mul_of_nonneg_right (round_mono' (div_le_div_of_nonneg_right hab hepos.le)) hepos.le
  rcases lt_trichotomy x 0 with hx | hx | hx
  · have bx := round53_neg_bounds hx
    rcases lt_trichotomy y 0 with hy | hy | hy
    · have by' := round53_neg_bounds hy
      have hk : Int.log 2 (-y) ≤ Int.log 2 (-x) := Int.log_mono_right (neg_pos.2 hy) (by linarith)
      rcases hk.eq_or_lt with h | h
      · exact same hxy (by rw [abs_of_neg hx, abs_of_neg hy, h])
      · have : (2 : ℝ) ^ (Int.log 2 (-y) + 1) ≤ (2 : ℝ) ^ Int.log 2 (-x) :=
          zpow_le_zpow_right₀ (by norm_num) (by omega)
        linarith [bx.2, by'.1]
    · rw [hy, z]
      have : (0 : ℝ) < (2 : ℝ) ^ Int.log 2 (-x) := zpow_pos (by norm_num) _
      linarith [bx.2]
    · have h1 : (0 : ℝ) < (2 : ℝ) ^ Int.log 2 (-x) := zpow_pos (by norm_num) _
      have h2 : (0 : ℝ) < (2 : ℝ) ^ Int.log 2 y := zpow_pos (by norm_num) _
      linarith [bx.2, (round53_pos_bounds hy).1]
  · rw [hx, z]
    have hy : 0 < y := by linarith
    have h2 : (0 : ℝ) < (2 : ℝ) ^ Int.log 2 y := zpow_pos (by norm_num) _
    linarith [(round53_pos_bounds hy).1]
  · have hy : 0 < y := by linarith
    have bx := round53_pos_bounds hx
    have by' := round53_pos_bounds hy
    have hk : Int.log 2 x ≤ Int.log 2 y := Int.log_mono_right hx hxy
    rcases hk.eq_or_lt with h | h
    · exact same hxy (by rw [abs_of_pos hx, abs_of_pos hy, h])
    · have : (2 : ℝ) ^ (Int.log 2 x + 1) ≤ (2 : ℝ) ^ Int.log 2 y := zpow_le_zpow_right₀ (by norm_num) (by omega)
      linarith [bx.2, by'.1]

theorem round53_one : round53 1 = 1 := by
  unfold round53
  rw [abs_one, Int.log_one_right]
  have e := (binade 0).1
  rw [zpow_zero] at e
  have h : (1 : ℝ) / (2 : ℝ) ^ ((0 : ℤ) - 52) = ((4503599627370496 : ℤ) : ℝ) := by
    rw [div_eq_iff (zpow_ne_zero _ (by norm_num))]; exact e
  rw [h, round_intCast]
  exact e.symm

/-- Double precision with correctly rounded powers preserves order, so the claims above apply to it. -/
example : OrderPreserving binary64 roundedLib where
  rd := C100_binary64_order
  rd_zero := by simp [binary64, round53]
  rd_one := round53_one
  zero y hy := by simp [roundedLib, Real.zero_rpow hy.ne', round53]
  one y _ := by simp only [roundedLib, Real.one_rpow]; exact round53_one
  pow y hy x x' h0 h := C100_binary64_order (Real.rpow_le_rpow h0 h hy.le)

theorem ideal_fraction {fuel : ℝ → Except Err ℝ} {rho n c : ℝ} (h : fuel rho = .ok n) :
    valueAt (fun r => (fuel r).map fun n => c * n) rho = c * n := by
  unfold valueAt
  simp only [h, Except.map]

/-- The parameters of a pedestal profile considered for double precision. -/
structure OrdinaryPedestal (core ped sep alpha beta rp : ℝ) : Prop where
  sep_pos : 0 < sep
  sep_le : sep ≤ ped
  ped_le : ped ≤ core
  ratio : core ≤ 1000 * sep
  alpha_ge : 1 ≤ alpha
  alpha_le : alpha ≤ 5
  beta_pos : 0 < beta
  beta_le : beta ≤ 5
  rp_pos : 0 < rp
  rp_lt : rp < 1

theorem ordinary_agrees {F : MathLib} (hF : AccurateLib F (4 * (2 : ℝ) ^ (-53 : ℤ))) (hF0 : PowZero F)
    {core ped sep alpha beta rp : ℝ} (h : OrdinaryPedestal core ped sep alpha beta rp) (rho : ℝ) :
    ProfileAgrees binary64 F (2 / 10 ^ 10) (.pedestal core ped sep alpha beta rp) rho := by
  have h53 : (2 : ℝ) ^ (-53 : ℤ) ≤ 1.2 / 10 ^ 16 := by
    rw [zpow_neg, show ((2 : ℝ) ^ (53 : ℤ)) = 2 ^ 53 by norm_cast]; norm_num
  have hp : (0 : ℝ) < (2 : ℝ) ^ (-53 : ℤ) := by positivity
  have a0 : 0 < alpha := by linarith [h.alpha_ge]
  have b5 : 1 + beta ≤ 6 := by linarith [h.beta_le]
  have b0 : 0 ≤ 1 + beta := by linarith [h.beta_pos]
  set v := 4 * (2 : ℝ) ^ (-53 : ℤ) with hv
  have v1 : v ≤ 4.8 / 10 ^ 16 := by rw [hv]; linarith
  have v2 : v ≤ 1 / 10 ^ 6 := v1.trans (by norm_num)
  have v0 : 0 ≤ v := by rw [hv]; positivity
  have k1 : (1 + beta) * v ≤ 6 * v := mul_le_mul_of_nonneg_right b5 v0
  have k0 : 0 ≤ (1 + beta) * v := mul_nonneg b0 v0
  have k2 : alpha * (3 * (1 + beta) * v) ≤ 90 * v := by nlinarith [h.alpha_le, mul_nonneg a0.le k0]
  have H := C100_agree_pedestal C74_binary64 hF hF0 (show (2 : ℝ) ^ (-53 : ℤ) ≤ v by rw [hv]; linarith) (v2.trans (by norm_num)) a0
    h.beta_pos h.rp_pos h.rp_lt (by nlinarith [v2, k1]) (k2.trans (by linarith [v2])) h.sep_pos h.sep_le h.ped_le rho
  intro scale hs
  obtain ⟨y', y, e1, e2, e3⟩ := H scale hs
  refine ⟨y', y, e1, e2, e3.trans (mul_le_mul_of_nonneg_right ?_ ?_)⟩
  · have q : 2 * core / sep ≤ 2000 := by rw [div_le_iff₀ h.sep_pos]; linarith [h.ratio]
    have q0 : 0 ≤ 2 * core / sep := by
      have : 0 ≤ core := by linarith [h.sep_pos, h.sep_le, h.ped_le]
      exact div_nonneg (by linarith) h.sep_pos.le
    have pl : powLoss alpha (3 * (1 + beta) * v) ≤ 90 * v := by
      unfold powLoss; rw [if_pos h.alpha_ge]; exact k2
    calc _ ≤ (188 * v) * 2000 := mul_le_mul (by linarith) q q0 (by linarith)
      _ ≤ _ := by linarith
  · have e : (Profile.mk (.pedestal core ped sep alpha beta rp) scale).value rho =
      .ok (pedestalValue core ped sep alpha beta rp rho * scale) := rfl
    rw [e] at e2
    obtain rfl := Except.ok.inj e2
    have := (C37_bounds core ped sep alpha beta rp a0 h.beta_pos h.rp_pos h.rp_lt h.ped_le h.sep_le rho).1
    exact mul_nonneg (by linarith [h.sep_pos]) hs

/-- C100.  Double precision, from profile parameters to strengths: fuel and temperature given by pedestal profiles with
exponents up to 5 and core values at most 1000 times the separatrix values, any fuel mixture and any flux coordinate; the
strength computed for every cell is the reaction rate there of the plasma without rounding, to one part in ten million. -/
theorem C100_binary64 {F : MathLib} (hF : AccurateLib F (4 * (2 : ℝ) ^ (-53 : ℤ))) (hF0 : PowZero F)
    {cT pT sT aT bT rT cN pN sN aN bN rN : ℝ} (hT : OrdinaryPedestal cT pT sT aT bT rT)
    (hN : OrdinaryPedestal cN pN sN aN bN rN) (hT0 : 0.21 ≤ sT) (hT1 : cT ≤ 99)
    {d t h : ℝ} (hd : 0 ≤ d) (ht : 0 ≤ t) (hh : 0 ≤ h) (hS : 0 < d + t + h)
    {xs : Reaction → List ℝ → Except Err (List ℝ)} {Q : Reaction → ℝ} {pts : List (ℝ × ℝ)} {oX oZ : ℝ} {psi : ℝ → ℝ → ℝ}
    {arg : SourceArg} {L : ℝ} {method : ReactivityMethod} (hmeth : method ≠ .XS) :
    let temp := Profile.mk (.pedestal cT pT sT aT bT rT) 1
    let fuel := Profile.mk (.pedestal cN pN sN aN bN rN) 1
    ∃ c, Composition.makeR binary64 d t h = .ok c ∧
      ∀ s, Source.makeR binary64 F xs (round53 Real.pi) Q pts oX oZ psi
          ((Transport.fromParameterisationsR binary64 temp fuel c).viewR binary64 F) arg L none method = .ok s →
        (∀ r ∈ s.sourceType, hasBoschHale r = true) → (∀ p ∈ centres s, 0 ≤ p.1) →
        ∀ r ∈ s.sourceType, List.Forall₂
          (fun a p => |a - cellRate publishedReactivity (idealPlasma temp.value fuel.value d t h) psi L r p| ≤
            1 / 10 ^ 7 * cellRate publishedReactivity (idealPlasma temp.value fuel.value d t h) psi L r p)
          (strengths s r) (centres s) := by
  intro temp fuel
  have h53 : (2 : ℝ) ^ (-53 : ℤ) ≤ 1.2 / 10 ^ 16 := by
    rw [zpow_neg, show ((2 : ℝ) ^ (53 : ℤ)) = 2 ^ 53 by norm_cast]; norm_num
  have hp : (0 : ℝ) < (2 : ℝ) ^ (-53 : ℤ) := by positivity
  have hpi : |round53 Real.pi - Real.pi| ≤ (2 : ℝ) ^ (-53 : ℤ) * Real.pi := by
    have := C74_binary64.rel Real.pi
    rwa [abs_of_pos Real.pi_pos] at this
  have bT : ∀ rho, ∃ T, temp.value rho = .ok T ∧ sT ≤ T ∧ T ≤ cT := fun rho => by
    have := C37_bounds cT pT sT aT bT rT (by linarith [hT.alpha_ge]) hT.beta_pos hT.rp_pos hT.rp_lt hT.ped_le hT.sep_le rho
    exact ⟨_, rfl, by rw [mul_one]; exact this.1, by rw [mul_one]; exact this.2⟩
  have bN : ∀ rho, ∃ n, fuel.value rho = .ok n ∧ sN ≤ n := fun rho => by
    have := C37_bounds cN pN sN aN bN rN (by linarith [hN.alpha_ge]) hN.beta_pos hN.rp_pos hN.rp_lt hN.ped_le hN.sep_le rho
    exact ⟨_, rfl, by rw [mul_one]; exact this.1⟩
  have pT : ∀ rho y, temp.value rho = .ok y → 0 ≤ y := fun rho y hy => by
    obtain ⟨T, e, l, -⟩ := bT rho
    rw [e] at hy; cases hy; linarith [hT.sep_pos]
  have pN : ∀ rho y, fuel.value rho = .ok y → 0 ≤ y := fun rho y hy => by
    obtain ⟨n, e, l⟩ := bN rho
    rw [e] at hy; cases hy; linarith [hN.sep_pos]
  obtain ⟨c, hc, -⟩ := C100_composition C74_binary64 (by linarith) hd ht hh hS
  refine ⟨c, hc, fun s hs hbh hx => ?_⟩
  have hag : ∀ rho, PlasmaAgrees (2 / 10 ^ 10 + 6 * (4 * (2 : ℝ) ^ (-53 : ℤ)))
      ((Transport.fromParameterisationsR binary64 temp fuel c).viewR binary64 F) (idealPlasma temp.value fuel.value d t h)
      rho := by
    intro rho
    obtain ⟨c', hc', H⟩ := C100_parameterised (F := F) (δ := 2 / 10 ^ 10) C74_binary64
      (show (2 : ℝ) ^ (-53 : ℤ) ≤ 4 * (2 : ℝ) ^ (-53 : ℤ) by linarith)
      (by norm_num) (by norm_num) (by linarith) hd ht hh hS (temp := temp) (fuel := fuel) zero_le_one zero_le_one
      (ordinary_agrees hF hF0 hN rho) (ordinary_agrees hF hF0 hT rho) (pN rho) (pT rho)
    rw [hc] at hc'
    cases hc'
    exact H
  have H := C100_source (A := binary64) (δ := 2 / 10 ^ 10 + 6 * (4 * (2 : ℝ) ^ (-53 : ℤ))) C74_binary64 hF (by linarith)
    (by linarith) hpi hmeth (by positivity) (by linarith) hs hbh (tr := idealPlasma temp.value fuel.value d t h) (by
      intro p hp'
      refine ⟨hx p hp', hag _, ?_, ?_, ?_⟩
      · obtain ⟨n, e, l⟩ := bN (psi p.1 p.2)
        have n0 : 0 ≤ n := by linarith [hN.sep_pos]
        intro sp
        cases sp with
        | deuterium =>
          simp only [density, idealPlasma]; rw [ideal_fraction e]; exact mul_nonneg (div_nonneg hd hS.le) n0
        | tritium =>
          simp only [density, idealPlasma]; rw [ideal_fraction e]; exact mul_nonneg (div_nonneg ht hS.le) n0
        | helium3 =>
          simp only [density, idealPlasma]; rw [ideal_fraction e]; exact mul_nonneg (div_nonneg hh hS.le) n0
      · obtain ⟨T, e, l, -⟩ := bT (psi p.1 p.2)
        simp only [idealPlasma, valueAt, e]; linarith
      · obtain ⟨T, e, -, l⟩ := bT (psi p.1 p.2)
        simp only [idealPlasma, valueAt, e]; linarith)
  intro r hr
  have h := H r hr
  rw [List.forall₂_iff_get] at h ⊢
  refine ⟨h.1, fun i h1 h2 => (h.2 i h1 h2).trans (mul_le_mul_of_nonneg_right (by linarith) ?_)⟩
  have hp' := List.get_mem (centres s) ⟨i, h2⟩
  obtain ⟨n, en, ln⟩ := bN (psi ((centres s).get ⟨i, h2⟩).1 ((centres s).get ⟨i, h2⟩).2)
  obtain ⟨T, eT, lT, lT'⟩ := bT (psi ((centres s).get ⟨i, h2⟩).1 ((centres s).get ⟨i, h2⟩).2)
  have n0 : 0 ≤ n := by linarith [hN.sep_pos]
  refine (cellRate_close (δ := 2 / 10 ^ 10 + 6 * (4 * (2 : ℝ) ^ (-53 : ℤ))) (by positivity) (by linarith) (hx _ hp') (hag _)
    ?_ ?_ ?_ (hbh r hr)).1
  · intro sp
    cases sp with
    | deuterium => simp only [density, idealPlasma]; rw [ideal_fraction en]; exact mul_nonneg (div_nonneg hd hS.le) n0
    | tritium => simp only [density, idealPlasma]; rw [ideal_fraction en]; exact mul_nonneg (div_nonneg ht hS.le) n0
    | helium3 => simp only [density, idealPlasma]; rw [ideal_fraction en]; exact mul_nonneg (div_nonneg hh hS.le) n0
  · simp only [idealPlasma, valueAt, eT]; linarith
  · simp only [idealPlasma, valueAt, eT]; linarith

/-- A typical plasma: 20 keV on the axis, 5 keV at the pedestal, 0.25 keV at the separatrix; densities in 1/m³. -/
example : OrdinaryPedestal 20 5 0.25 1.45 2 0.94 ∧ OrdinaryPedestal 1e20 8e19 2e19 1 2 0.94 := by
  constructor <;> constructor <;> norm_num

/-- Correctly rounded library functions satisfy the hypotheses. -/
example : PowZero roundedLib := fun y hy => by simp [roundedLib, Real.zero_rpow hy.ne', round53]

/-- The computed fractions of an equal mixture given as 1 : 1 are right, and add up to 1 within 4 roundings. -/
example : ∃ c, Composition.makeR binary64 1 1 0 = .ok c ∧ |c.D + c.T + c.He3 - 1| ≤ 4 * (2 : ℝ) ^ (-53 : ℤ) := by
  have h53 : (2 : ℝ) ^ (-53 : ℤ) ≤ 1.2 / 10 ^ 16 := by
    rw [zpow_neg, show ((2 : ℝ) ^ (53 : ℤ)) = 2 ^ 53 by norm_cast]; norm_num
  obtain ⟨c, h, -, -, -, h'⟩ := C100_composition (d := 1) (t := 1) (h := 0) C74_binary64 (by linarith) (by norm_num)
    (by norm_num) le_rfl (by norm_num)
  exact ⟨c, h, h'⟩

end
end TNS
