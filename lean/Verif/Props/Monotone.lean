import Verif.Spec.Monotone
import Verif.Spec.Workflow
import Verif.Lemmas.BoschHaleShape
import Verif.Lemmas.XsRise
import Verif.Lemmas.XsTurn
import Verif.Props.Agreement
/-
C76: the reactivities rise with the temperature.
-/

set_option autoImplicit false

namespace TNS
open Spec Set

def bhDT : BHCoef :=
  ⟨34.3827 ^ 2 / 4, [1, 7.51886e-2, 1.35e-2, 1.366e-5], [0, 1.51361e-2, 4.60643e-3, -1.0675e-4]⟩
def bhDDn : BHCoef := ⟨31.3970 ^ 2 / 4, [1, 7.68222e-3, -2.964e-6], [0, 5.85778e-3]⟩
def bhDDp : BHCoef := ⟨31.3970 ^ 2 / 4, [1, 1.99167e-3, 1.0506e-5], [0, 3.41267e-3]⟩

theorem bhDT_rise : BHCoef.pieces bhDT.riseStep 0 [(264/5,1801/1000),(66,43/25)] = true := by
  decide +kernel
theorem bhDT_fall : BHCoef.pieces bhDT.fallStep 67 [(1000,17171/10000)] = true := by
  decide +kernel
theorem bhDT_mid : ppos bhDT.D 66 67 = true ∧ ppos bhDT.M 66 67 = true := by
  decide +kernel
theorem bhDDn_rise : BHCoef.pieces bhDDn.riseStep 0 [(3377/100,183/100),(8469/100,1263/1000),
    (15987/100,953/1000),(13363/50,93/125),(9587/25,153/250),(57239/100,469/1000),(960,19/200)] =
    true := by
  decide +kernel
theorem bhDDp_rise : BHCoef.pieces bhDDp.riseStep 0 [(240,853/1000),(300,787/1000)] = true := by
  decide +kernel

theorem bhDT_exp (t : ℝ) (ht : 0 < t) (hD : 0 < peval bhDT.D t) (hM : 0 < peval bhDT.M t) :
    Spec.boschHaleDT t = 1.17302e-9 / 10 ^ 6 *
      Real.exp (Real.log bhDT.A / 6 - Real.log 1124656 / 2) * Real.exp (bhDT.H t) := by
  refine BHCoef.boschHale_eq_exp bhDT _ _ _ _ _ _ _ _ _ t ?_ (by decide +kernel) (by norm_num) ?_ ?_ ht hD hM
  · norm_num [bhDT]
  · simp only [bhDT, peval_cons, peval_nil]; push_cast; ring
  · simp only [bhDT, peval_cons, peval_nil]; push_cast; ring

theorem bhDDn_exp (t : ℝ) (ht : 0 < t) (hD : 0 < peval bhDDn.D t) (hM : 0 < peval bhDDn.M t) :
    Spec.boschHaleDDn t = 5.43360e-12 / 10 ^ 6 *
      Real.exp (Real.log bhDDn.A / 6 - Real.log 937814 / 2) * Real.exp (bhDDn.H t) := by
  refine BHCoef.boschHale_eq_exp bhDDn _ _ _ _ _ _ _ _ _ t ?_ (by decide +kernel) (by norm_num) ?_ ?_ ht hD hM
  · norm_num [bhDDn]
  · simp only [bhDDn, peval_cons, peval_nil]; push_cast; ring
  · simp only [bhDDn, peval_cons, peval_nil]; push_cast; ring

theorem bhDDp_exp (t : ℝ) (ht : 0 < t) (hD : 0 < peval bhDDp.D t) (hM : 0 < peval bhDDp.M t) :
    Spec.boschHaleDDp t = 5.65718e-12 / 10 ^ 6 *
      Real.exp (Real.log bhDDp.A / 6 - Real.log 937814 / 2) * Real.exp (bhDDp.H t) := by
  refine BHCoef.boschHale_eq_exp bhDDp _ _ _ _ _ _ _ _ _ t ?_ (by decide +kernel) (by norm_num) ?_ ?_ ht hD hM
  · norm_num [bhDDp]
  · simp only [bhDDp, peval_cons, peval_nil]; push_cast; ring
  · simp only [bhDDp, peval_cons, peval_nil]; push_cast; ring

theorem rise_of_pieces (b : BHCoef) (f : ℝ → ℝ) (k : ℝ) (hk : 0 < k)
    (hf : ∀ t, 0 < t → 0 < peval b.D t → 0 < peval b.M t → f t = k * Real.exp (b.H t))
    (l : List (ℚ × ℚ)) (hl : l ≠ []) (h : BHCoef.pieces b.riseStep 0 l = true) (q : ℝ)
    (hq : q = BHCoef.piecesEnd 0 l) : StrictMonoOn f (Ioc 0 q) := by
  obtain ⟨h1, h2⟩ := b.H_strictMono l hl 0 (le_refl _) h
  subst hq
  intro x hx y hy hxy
  have hx' : 0 < x ∧ ((0 : ℚ) : ℝ) ≤ x ∧ x ≤ BHCoef.piecesEnd 0 l := ⟨hx.1, by simpa using hx.1.le, hx.2⟩
  have hy' : 0 < y ∧ ((0 : ℚ) : ℝ) ≤ y ∧ y ≤ BHCoef.piecesEnd 0 l := ⟨hy.1, by simpa using hy.1.le, hy.2⟩
  obtain ⟨a1, a2⟩ := h2 x hx'.1 hx'.2.1 hx'.2.2
  obtain ⟨b1, b2⟩ := h2 y hy'.1 hy'.2.1 hy'.2.2
  rw [hf x hx.1 a1 a2, hf y hy.1 b1 b2]
  exact mul_lt_mul_of_pos_left (Real.exp_lt_exp.2 (h1 hx' hy' hxy)) hk

/-- **C76**: the D-D reactivities (Bosch-Hale) rise strictly, the neutron branch up to 960 keV and the
proton branch up to 300 keV. -/
theorem C76_DD : StrictMonoOn Spec.boschHaleDDn (Ioc 0 960) ∧
    StrictMonoOn Spec.boschHaleDDp (Ioc 0 300) := by
  refine ⟨?_, ?_⟩
  · refine rise_of_pieces bhDDn _ _ ?_ bhDDn_exp _ (by simp) bhDDn_rise 960 ?_
    · positivity
    · norm_num [BHCoef.piecesEnd]
  · refine rise_of_pieces bhDDp _ _ ?_ bhDDp_exp _ (by simp) bhDDp_rise 300 ?_
    · positivity
    · norm_num [BHCoef.piecesEnd]

/-- **C76**: the D-T reactivity (Bosch-Hale) rises strictly up to 66 keV, falls strictly from 67 keV to
1000 keV, and is largest at a temperature between 66 and 67 keV. -/
theorem C76_DT : StrictMonoOn Spec.boschHaleDT (Ioc 0 66) ∧
    StrictAntiOn Spec.boschHaleDT (Icc 67 1000) ∧
    ∃ p ∈ Icc (66 : ℝ) 67, ∀ t, 0 < t → t ≤ 1000 → Spec.boschHaleDT t ≤ Spec.boschHaleDT p := by
  have hr : StrictMonoOn Spec.boschHaleDT (Ioc 0 66) := by
    refine rise_of_pieces bhDT _ _ ?_ bhDT_exp _ (by simp) bhDT_rise 66 ?_
    · positivity
    · norm_num [BHCoef.piecesEnd]
  have hf : StrictAntiOn Spec.boschHaleDT (Icc 67 1000) := by
    obtain ⟨h1, h2⟩ := bhDT.H_strictAnti _ (by simp) 67 (by norm_num) bhDT_fall
    intro x hx y hy hxy
    have hx' : 0 < x ∧ ((67 : ℚ) : ℝ) ≤ x ∧ x ≤ BHCoef.piecesEnd 67 [(1000,17171/10000)] :=
      ⟨by linarith [hx.1], by push_cast; exact hx.1, by simp only [BHCoef.piecesEnd]; push_cast; exact hx.2⟩
    have hy' : 0 < y ∧ ((67 : ℚ) : ℝ) ≤ y ∧ y ≤ BHCoef.piecesEnd 67 [(1000,17171/10000)] :=
      ⟨by linarith [hy.1], by push_cast; exact hy.1, by simp only [BHCoef.piecesEnd]; push_cast; exact hy.2⟩
    obtain ⟨a1, a2⟩ := h2 x hx'.1 hx'.2.1 hx'.2.2
    obtain ⟨b1, b2⟩ := h2 y hy'.1 hy'.2.1 hy'.2.2
    rw [bhDT_exp x hx'.1 a1 a2, bhDT_exp y hy'.1 b1 b2]
    exact mul_lt_mul_of_pos_left (Real.exp_lt_exp.2 (h1 hx' hy' hxy)) (by positivity)
  have hc : ContinuousOn Spec.boschHaleDT (Icc 66 67) := by
    have hpos : ∀ t ∈ Icc (66 : ℝ) 67, 0 < t ∧ 0 < peval bhDT.D t ∧ 0 < peval bhDT.M t := by
      intro t ht
      exact ⟨by linarith [ht.1], ppos_sound bhDT_mid.1 t (by push_cast; exact ht.1) (by push_cast; exact ht.2),
        ppos_sound bhDT_mid.2 t (by push_cast; exact ht.1) (by push_cast; exact ht.2)⟩
    refine ContinuousOn.congr (f := fun t => 1.17302e-9 / 10 ^ 6 *
      Real.exp (Real.log bhDT.A / 6 - Real.log 1124656 / 2) * Real.exp (bhDT.H t)) ?_ ?_
    · intro t ht
      obtain ⟨a, b, c⟩ := hpos t ht
      have := (bhDT.hasDerivAt_H t a b c).continuousAt.continuousWithinAt (s := Icc 66 67)
      exact ContinuousWithinAt.mul continuousWithinAt_const
        (Real.continuous_exp.continuousAt.comp_continuousWithinAt this)
    · intro t ht
      obtain ⟨a, b, c⟩ := hpos t ht
      exact bhDT_exp t a b c
  refine ⟨hr, hf, ?_⟩
  obtain ⟨p, hp, hmax⟩ := isCompact_Icc.exists_isMaxOn ⟨66, by norm_num⟩ hc
  refine ⟨p, hp, fun t ht h1000 => ?_⟩
  rcases le_total t 66 with h | h
  · exact (hr.monotoneOn ⟨ht, h⟩ ⟨by norm_num, le_refl _⟩ h).trans (hmax ⟨le_refl _, by norm_num⟩)
  rcases le_total t 67 with h' | h'
  · exact hmax ⟨h, h'⟩
  · exact (hf.antitoneOn ⟨le_refl _, by norm_num⟩ ⟨h', h1000⟩ h').trans
      (hmax ⟨by norm_num, le_refl _⟩)

/-- The heavier reactant is at least 1.49 times as heavy as the deuteron. -/
def HeavierReactant (m : Masses ℝ) : Reaction → Prop
  | .n .D_T => 1.49 * m.D ≤ m.T
  | .a .D_He3 => 1.49 * m.D ≤ m.He3
  | _ => True

/-- In keV: how far the shape of the table alone shows the Maxwell averages to rise. -/
noncomputable def shapeLimit : Reaction → ℝ
  | .n .D_T => 9.5
  | .n .D_D => 100
  | .n .T_T => 100
  | .a .D_D => 100
  | .a .D_He3 => 66

/-- **C76**, for masses that are not known precisely: the Maxwell averages of the tabulated cross sections
rise strictly: D-T up to 9.5 keV, both branches of D-D and T-T up to 100 keV, D-³He up to 66 keV. -/
theorem C76_xs_shape (u : SI) (m : Masses ℝ) (h : PhysicalData u m) (r : Reaction)
    (hm : HeavierReactant m r) :
    StrictMonoOn (fun t => maxwellAverage (r.crossSection u m).reducedMass u.keV (t * u.keV)
      (npInterp (r.crossSection u m).table)) (Ioc 0 (shapeLimit r)) := by
  obtain ⟨m1, m2, m5⟩ := h.mass r
  have hcall := fun e he1 he2 => (call_ok u _ _ m1 m2 m5 _ (fileRows_ok r) e he1 he2).2
  have hmu : 0 < (r.crossSection u m).reducedMass := by
    rw [crossSection_eq]
    have := h.amu
    simp only [CrossSection.load]; positivity
  have hl100 : shapeLimit r ≤ 100 := by
    rcases r with (_ | _ | _) | (_ | _) <;> norm_num [shapeLimit]
  refine maxwellAverage_strictMono _ _ _ hmu h.keV hl100 _ ?_ ?_
  · rw [crossSection_eq]; exact hcall
  intro E e _ hE _ he
  rw [crossSection_eq]
  have half : ∀ M : ℝ, 0 < M → M / (M + M) = 1 / 2 := by intro M hM; field_simp; norm_num
  have heavy : ∀ M N : ℝ, 0 < M → 1.49 * M ≤ N → 0.598 ≤ N / (M + N) := by
    intro M N hM hN
    rw [le_div_iff₀ (by linarith)]
    linarith
  refine load_shape u _ _ m1 m2 _ (fileRows_ok r) _ _ (risesB_file r) _ ?_ ?_ hl100 E e hE he
  · have hD := h.D
    rcases r with (_ | _ | _) | (_ | _) <;>
      simp only [shapeLimit, colliderMass, riseRange, half _ h.D, half _ h.T]
    · have := heavy _ _ hD hm
      norm_num at this ⊢; linarith
    · norm_num
    · norm_num
    · norm_num
    · have := heavy _ _ hD hm
      norm_num at this ⊢; linarith
  · have hD := h.D
    rcases r with (_ | _ | _) | (_ | _) <;>
      simp only [colliderMass, riseRange, half _ h.D, half _ h.T]
    · have := heavy _ _ hD hm
      norm_num at this ⊢; linarith
    · norm_num
    · norm_num
    · norm_num
    · have := heavy _ _ hD hm
      norm_num at this ⊢; linarith

/-- The D-T average in terms of the product studied in `XsTurn`. -/
theorem xsDT_exp (u : SI) (m : Masses ℝ) (h : PhysicalData u m) (hm : Measured u m) :
    ∃ (k : ℝ) (F : ℝ → ℝ), 0 < k ∧ NodeData cDT Data.glDT Data.ghDT F kDT.G ∧ Continuous F ∧
      ∀ t, 1 / 100 ≤ 1 / t → 1 / t ≤ 1 / 7 → 0 < t →
      xsValue u m .DT t = k * Real.exp (3 / 2 * Real.log (1 / t) + Real.log (F (1 / t))) := by
  have hmu : 0 < (Reaction.DT.crossSection u m).reducedMass := by
    obtain ⟨m1, m2, m5⟩ := h.mass .DT
    rw [crossSection_eq]
    have := h.amu
    simp only [CrossSection.load]; positivity
  have d := dataDT u m hm
  have hcont : Continuous (expSum 1000 (wgt (npInterp (Reaction.DT.crossSection u m).table)) logEnergy) := by
    unfold expSum
    fun_prop
  have hval : ∀ t, 0 < t → xsValue u m .DT t =
      Real.sqrt (8 / (Real.pi * (Reaction.DT.crossSection u m).reducedMass)) * Real.sqrt u.keV *
        t ^ (-(3 : ℝ) / 2) *
        expSum 1000 (wgt (npInterp (Reaction.DT.crossSection u m).table)) logEnergy (1 / t) :=
    fun t ht => maxwellAverage_expSum _ u.keV h.keV _ t ht
  generalize expSum 1000 (wgt (npInterp (Reaction.DT.crossSection u m).table)) logEnergy = F at d hcont hval
  have hk := h.keV
  refine ⟨Real.sqrt (8 / (Real.pi * (Reaction.DT.crossSection u m).reducedMass)) * Real.sqrt u.keV, F,
    by positivity, d, hcont, fun t h1 h2 ht => ?_⟩
  have hF : 0 < F (1 / t) := d.F_pos _ ⟨le_trans (by norm_num) h1, h2.trans (by norm_num)⟩
  rw [hval t ht, Real.exp_add, Real.exp_log hF, one_div, Real.log_inv,
    Real.rpow_def_of_pos ht, mul_assoc]
  congr 3
  ring

theorem inv_mem_Icc {a b t : ℝ} (ha : 0 < a) (h : t ∈ Icc a b) : 1 / t ∈ Icc (1 / b) (1 / a) :=
  ⟨one_div_le_one_div_of_le (ha.trans_le h.1) h.2, one_div_le_one_div_of_le ha h.1⟩

/-- **C76**: the Maxwell average of the tabulated D-T cross section rises strictly up to 64 keV, falls
strictly from 69 keV to 100 keV, and is largest at a temperature between 64 and 69 keV. -/
theorem C76_xs_DT (u : SI) (m : Masses ℝ) (h : PhysicalData u m) (hm : Measured u m) :
    StrictMonoOn (xsValue u m .DT) (Ioc 0 64) ∧ StrictAntiOn (xsValue u m .DT) (Icc 69 100) ∧
    ∃ p ∈ Icc (64 : ℝ) 69, ∀ t, 0 < t → t ≤ 100 → xsValue u m .DT t ≤ xsValue u m .DT p := by
  obtain ⟨k, F, hk, d, hF, hv⟩ := xsDT_exp u m h hm
  obtain ⟨g1, g2⟩ := turnDT d
  have hr1 : StrictMonoOn (xsValue u m .DT) (Icc 7 64) := by
    intro x hx y hy hxy
    have ix := inv_mem_Icc (by norm_num) hx
    have iy := inv_mem_Icc (by norm_num) hy
    have hx0 : 0 < x := by linarith [hx.1]
    rw [hv x (le_trans (by norm_num) ix.1) ix.2 hx0,
      hv y (le_trans (by norm_num) iy.1) iy.2 (by linarith)]
    exact mul_lt_mul_of_pos_left (Real.exp_lt_exp.2 (g1 iy ix (one_div_lt_one_div_of_lt hx0 hxy))) hk
  have hr0 : StrictMonoOn (xsValue u m .DT) (Ioc 0 9.5) := by
    have h1 := hm.D.2
    have h2 := hm.T.1
    exact C76_xs_shape u m h .DT (show 1.49 * m.D ≤ m.T by linarith)
  have hr : StrictMonoOn (xsValue u m .DT) (Ioc 0 64) := by
    intro x hx y hy hxy
    rcases le_total y 9.5 with hy9 | hy9
    · exact hr0 ⟨hx.1, hxy.le.trans hy9⟩ ⟨hy.1, hy9⟩ hxy
    rcases le_total 7 x with hx7 | hx7
    · exact hr1 ⟨hx7, hx.2⟩ ⟨hx7.trans hxy.le, hy.2⟩ hxy
    · refine lt_of_lt_of_le (hr0 ⟨hx.1, hx7.trans (by norm_num)⟩ ⟨by norm_num, le_rfl⟩
        (lt_of_le_of_lt hx7 (by norm_num))) ?_
      exact hr1.monotoneOn ⟨by norm_num, by norm_num⟩ ⟨le_trans (by norm_num) hy9, hy.2⟩ hy9
  have hf : StrictAntiOn (xsValue u m .DT) (Icc 69 100) := by
    intro x hx y hy hxy
    have ix := inv_mem_Icc (by norm_num) hx
    have iy := inv_mem_Icc (by norm_num) hy
    have hx0 : 0 < x := by linarith [hx.1]
    rw [hv x ix.1 (ix.2.trans (by norm_num)) hx0, hv y iy.1 (iy.2.trans (by norm_num)) (by linarith)]
    exact mul_lt_mul_of_pos_left (Real.exp_lt_exp.2 (g2 ⟨iy.1, iy.2.trans (by norm_num)⟩
      ⟨ix.1, ix.2.trans (by norm_num)⟩ (one_div_lt_one_div_of_lt hx0 hxy))) hk
  have hc : ContinuousOn (xsValue u m .DT) (Icc 64 69) := by
    have hpos : ∀ t ∈ Icc (64 : ℝ) 69, 1 / 100 ≤ 1 / t ∧ 1 / t ≤ 1 / 7 ∧ 0 < t := by
      intro t ht
      have i := inv_mem_Icc (by norm_num) ht
      exact ⟨le_trans (by norm_num) i.1, i.2.trans (by norm_num), by linarith [ht.1]⟩
    refine ContinuousOn.congr (f := fun t => k * Real.exp (3 / 2 * Real.log (1 / t) + Real.log (F (1 / t)))) ?_
      (fun t ht => hv t (hpos t ht).1 (hpos t ht).2.1 (hpos t ht).2.2)
    intro t ht
    obtain ⟨a, b, c⟩ := hpos t ht
    have hF0 : F (1 / t) ≠ 0 := (d.F_pos _ ⟨le_trans (by norm_num) a, b.trans (by norm_num)⟩).ne'
    have hi : ContinuousAt (fun t : ℝ => 1 / t) t := by
      simpa only [one_div] using continuousAt_inv₀ c.ne'
    have l1 : ContinuousAt (fun t : ℝ => Real.log (1 / t)) t := hi.log (one_div_pos.2 c).ne'
    have l2 : ContinuousAt (fun t : ℝ => Real.log (F (1 / t))) t :=
      (ContinuousAt.comp (g := F) hF.continuousAt hi).log hF0
    exact (continuousAt_const.mul ((continuousAt_const.mul l1).add l2).rexp).continuousWithinAt
  refine ⟨hr, hf, ?_⟩
  obtain ⟨p, hp, hmax⟩ := isCompact_Icc.exists_isMaxOn ⟨64, by norm_num⟩ hc
  refine ⟨p, hp, fun t ht h100 => ?_⟩
  rcases le_total t 64 with h' | h'
  · exact (hr.monotoneOn ⟨ht, h'⟩ ⟨by norm_num, le_refl _⟩ h').trans (hmax ⟨le_refl _, by norm_num⟩)
  rcases le_total t 69 with h'' | h''
  · exact hmax ⟨h', h''⟩
  · exact (hf.antitoneOn ⟨le_refl _, by norm_num⟩ ⟨h'', h100⟩ h'').trans
      (hmax ⟨by norm_num, le_refl _⟩)

/-- **C76**: the Maxwell averages of the tabulated cross sections rise strictly: D-T up to 64 keV, both
branches of D-D and T-T up to 100 keV, D-³He up to 66 keV. -/
theorem C76_xs (u : SI) (m : Masses ℝ) (h : PhysicalData u m) (hm : KnownMasses u m) (r : Reaction) :
    StrictMonoOn (fun t => maxwellAverage (r.crossSection u m).reducedMass u.keV (t * u.keV)
      (npInterp (r.crossSection u m).table)) (Ioc 0 (riseLimit .XS r)) := by
  have hX : riseLimit .XS r = crossSectionLimit r := by unfold riseLimit; rw [if_neg (by simp)]
  rw [hX]
  rcases r with (_ | _ | _) | (_ | _)
  · exact (C76_xs_DT u m h hm.measured).1
  · exact C76_xs_shape u m h .DDn trivial
  · exact C76_xs_shape u m h .TT trivial
  · exact C76_xs_shape u m h .DDp trivial
  · exact C76_xs_shape u m h (.a .D_He3) hm.He3

theorem thermalReactivity_strictMono (u : SI) (m : Masses ℝ) (h : PhysicalData u m)
    (hm : KnownMasses u m) (method : ReactivityMethod) (r : Reaction) :
    StrictMonoOn (thermalReactivity u m method r) (Ioc 0 (riseLimit method r)) := by
  by_cases hc : method ≠ .XS ∧ hasBoschHale r = true
  · intro a ha b hb hab
    unfold thermalReactivity
    rw [if_pos hc, if_pos hc]
    unfold riseLimit at ha hb
    rw [if_pos hc] at ha hb
    unfold boschHaleValue
    rw [if_neg (not_le.2 ha.1), if_neg (not_le.2 hb.1)]
    have hr := hc.2
    rcases r with (_ | _ | _) | (_ | _) <;> simp only [hasBoschHale, reduceCtorEq] at hr
    · exact C76_DT.1 ha hb hab
    · exact C76_DD.1 ha hb hab
    · exact C76_DD.2 ha hb hab
  · have e : riseLimit method r = riseLimit .XS r := by
      unfold riseLimit
      rw [if_neg hc, if_neg (by simp)]
    have e2 : thermalReactivity u m method r = fun t => maxwellAverage (r.crossSection u m).reducedMass
        u.keV (t * u.keV) (npInterp (r.crossSection u m).table) := by
      funext t; unfold thermalReactivity; rw [if_neg hc]
    rw [e, e2]
    exact C76_xs u m h hm r

theorem riseLimit_le (method : ReactivityMethod) (r : Reaction) : riseLimit method r ≤ 960 := by
  unfold riseLimit
  split_ifs <;> rcases r with (_ | _ | _) | (_ | _) <;>
    norm_num [boschHaleLimit, crossSectionLimit]

/-- **C76**: for every method and reaction, `reactivity` of any non-empty array of temperatures in
`(0, riseLimit]` succeeds, and a hotter entry has a strictly larger result. -/
theorem C76_reactivity (u : SI) (m : Masses ℝ) (h : PhysicalData u m) (hm : KnownMasses u m)
    (method : ReactivityMethod) (r : Reaction) (ts : List ℝ) (hne : ts ≠ [])
    (hts : ∀ t ∈ ts, 0 < t ∧ t ≤ riseLimit method r) :
    ∃ vs, reactivity u m method r ts = .ok vs ∧ ∃ hl : vs.length = ts.length,
      ∀ (i j : ℕ) (hi : i < ts.length) (hj : j < ts.length), ts[i] < ts[j] → vs[i] < vs[j] := by
  refine ⟨ts.map (thermalReactivity u m method r), C51_dispatch u m h method r ts hne ?_, by simp, ?_⟩
  · intro t ht
    unfold goodTemperature
    split_ifs
    · exact fun _ => (hts t ht).2.trans (riseLimit_le method r)
    · exact (hts t ht).1
  · intro i j hi hj hij
    simp only [List.getElem_map]
    exact thermalReactivity_strictMono u m h hm method r (hts _ (List.getElem_mem hi))
      (hts _ (List.getElem_mem hj)) hij

/-- CODATA / AME masses meet the additional hypothesis. -/
example : KnownMasses ⟨1.602176634e-16, 1.66053906892e-27⟩ ⟨2.01410177812, 3.0160492779, 4.002602,
    3.0160293201, 1.00866491588, 1.007276466621, 5.48579909065e-4⟩ :=
  ⟨by constructor <;> norm_num, by norm_num⟩

/-- Ordinary plasma temperatures are within the limit of every reaction with the default method. -/
example (r : Reaction) : (66 : ℝ) ≤ riseLimit .AUTO r ∧ (64 : ℝ) ≤ riseLimit .XS r := by
  rcases r with (_ | _ | _) | (_ | _) <;> simp [riseLimit, hasBoschHale, boschHaleLimit,
    crossSectionLimit] <;> norm_num

end TNS
