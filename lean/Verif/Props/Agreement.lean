import Verif.Lemmas.XsLink
/-
C81: the two ways of computing reactivities agree.
-/

set_option autoImplicit false
set_option maxRecDepth 100000

namespace TNS
open Spec Set

/-- The Maxwell average the code computes from the cross sections of `r`. -/
noncomputable def xsValue (u : SI) (m : Masses ℝ) (r : Reaction) (t : ℝ) : ℝ :=
  maxwellAverage (r.crossSection u m).reducedMass u.keV (t * u.keV) (npInterp (r.crossSection u m).table)

/-- Bounds for the constant in the ratio of the reactivities. -/
theorem sqrt_between (x lo hi : ℝ) (h0 : 0 ≤ lo) (h1 : lo ^ 2 ≤ x) (h2 : x ≤ hi ^ 2) (h3 : 0 ≤ hi) :
    lo ≤ Real.sqrt x ∧ Real.sqrt x ≤ hi :=
  ⟨Real.le_sqrt_of_sq_le h1, (Real.sqrt_le_left h3).2 h2⟩

/-- From bounds of the product at `1 / t` to bounds of the reactivity. -/
theorem assemble (F G κ c1 A B X t12 Θ Tlo Thi slo shi lo hi : ℝ) (hFG : 0 ≤ F * G) (hΘ : 0 < Θ * t12)
    (hκ1 : slo ≤ Real.sqrt κ) (hκ2 : Real.sqrt κ ≤ shi) (hs : 0 ≤ slo) (hcA : 0 < c1 * A) (hB : 0 < B)
    (hX : X = B * (Real.sqrt κ * 10 ^ 6 / (c1 * A) * (F * G)))
    (h1 : Tlo ≤ Θ * t12 * (F * G)) (h2 : Θ * t12 * (F * G) ≤ 1.0000201 * Thi) (hT : 0 ≤ Tlo)
    (g1 : lo * (c1 * A) * (Θ * t12) ≤ slo * 10 ^ 6 * Tlo)
    (g2 : shi * 10 ^ 6 * (1.0000201 * Thi) ≤ hi * (c1 * A) * (Θ * t12)) :
    lo * B ≤ X ∧ X ≤ hi * B := by
  set s := Real.sqrt κ
  set P := F * G
  have e1 : slo * 10 ^ 6 * Tlo ≤ s * 10 ^ 6 * (Θ * t12 * P) :=
    mul_le_mul (by linarith) h1 hT (by linarith)
  have e2 : s * 10 ^ 6 * (Θ * t12 * P) ≤ shi * 10 ^ 6 * (1.0000201 * Thi) :=
    mul_le_mul (by linarith) h2 (by positivity) (by linarith)
  have k1 : lo * (c1 * A) ≤ s * 10 ^ 6 * P :=
    le_of_mul_le_mul_right (by linarith : lo * (c1 * A) * (Θ * t12) ≤ s * 10 ^ 6 * P * (Θ * t12)) hΘ
  have k2 : s * 10 ^ 6 * P ≤ hi * (c1 * A) :=
    le_of_mul_le_mul_right (by linarith : s * 10 ^ 6 * P * (Θ * t12) ≤ hi * (c1 * A) * (Θ * t12)) hΘ
  have k3 : lo ≤ s * 10 ^ 6 / (c1 * A) * P := by
    rw [div_mul_eq_mul_div, le_div_iff₀ hcA]; exact k1
  have k4 : s * 10 ^ 6 / (c1 * A) * P ≤ hi := by
    rw [div_mul_eq_mul_div, div_le_iff₀ hcA]; exact k2
  rw [hX]
  constructor
  · rw [mul_comm lo]; exact mul_le_mul_of_nonneg_left k3 hB.le
  · rw [mul_comm hi]; exact mul_le_mul_of_nonneg_left k4 hB.le

section
variable (u : SI) (m : Masses ℝ)

/-! ### D-T -/

theorem massDT (hm : Measured u m) : (50301510 : ℝ) / 30160493 ≤ (m.D + m.T) / m.T ∧
    (m.D + m.T) / m.T ≤ (25150755 : ℝ) / 15080246 ∧ 0 < m.D ∧ 0 < m.T ∧ m.D ≤ 5 * m.T := by
  obtain ⟨⟨d1, d2⟩, ⟨t1, t2⟩, -, -⟩ := hm
  norm_num at d1 d2 t1 t2
  have hT : 0 < m.T := by linarith
  refine ⟨?_, ?_, by linarith, hT, by linarith⟩
  · rw [div_le_div_iff₀ (by norm_num) hT]; linarith
  · rw [div_le_div_iff₀ hT (by norm_num)]; linarith

theorem dataDT (hm : Measured u m) : NodeData cDT Data.glDT Data.ghDT
    (expSum 1000 (wgt (npInterp (Reaction.DT.crossSection u m).table)) logEnergy) kDT.G := by
  obtain ⟨r1, r2, d0, t0, d5⟩ := massDT u m hm
  have := nodeData u m.D m.T d0 t0 d5 Data.dtRows rowsOk_all.1 50301510 30160493 25150755 15080246
    (by norm_num) (by norm_num) (by exact_mod_cast r1) (by exact_mod_cast r2) cDT xsAll_wDT weight_sums.1
    (fun m j hm hj => (unpack_sum m j hm hj).1) kDT (by decide) (by decide) rfl kCheck.1
    Data.yDT Data.glDT Data.ghDT tableDT
  exact this

theorem kappa_bounds (hm : Measured u m) (μ M ml mh slo shi : ℝ) (h1 : ml ≤ μ) (h2 : μ ≤ mh) (hml : 0 < ml)
    (hM : 0 < M) (hslo : 0 ≤ slo) (hshi : 0 ≤ shi)
    (g1 : slo ^ 2 * (3.141593 * (mh * 1.66053907e-27)) ≤ 8 * 1.60217663e-16 * M)
    (g2 : 8 * 1.60217664e-16 * M ≤ shi ^ 2 * (3.141592 * (ml * 1.66053906e-27))) :
    slo ≤ Real.sqrt (8 * u.keV * M / (Real.pi * (μ * u.amu))) ∧
    Real.sqrt (8 * u.keV * M / (Real.pi * (μ * u.amu))) ≤ shi := by
  obtain ⟨-, -, ⟨k1, k2⟩, ⟨a1, a2⟩⟩ := hm
  have p1 := Real.pi_gt_d6.le
  have p2 := Real.pi_lt_d6.le
  have hμ : 0 < μ := by linarith
  have ha : 0 < u.amu := lt_of_lt_of_le (by norm_num) a1
  have hp := Real.pi_pos
  have den1 : 3.141592 * (ml * 1.66053906e-27) ≤ Real.pi * (μ * u.amu) :=
    mul_le_mul p1 (mul_le_mul h1 a1 (by norm_num) hμ.le) (by positivity) hp.le
  have den2 : Real.pi * (μ * u.amu) ≤ 3.141593 * (mh * 1.66053907e-27) :=
    mul_le_mul p2 (mul_le_mul h2 a2 ha.le (by linarith)) (by positivity) (by norm_num)
  apply sqrt_between _ _ _ hslo _ _ hshi
  · rw [le_div_iff₀ (by positivity)]
    refine (mul_le_mul_of_nonneg_left den2 (by positivity)).trans (g1.trans ?_)
    exact mul_le_mul_of_nonneg_right (mul_le_mul_of_nonneg_left k1 (by norm_num)) hM.le
  · rw [div_le_iff₀ (by positivity)]
    refine le_trans ?_ (g2.trans (mul_le_mul_of_nonneg_left den1 (by positivity)))
    exact mul_le_mul_of_nonneg_right (mul_le_mul_of_nonneg_left k2 (by norm_num)) hM.le

theorem kappaDT (hm : Measured u m) :
    478344870 ≤ Real.sqrt (8 * u.keV * 1124656 / (Real.pi * (Reaction.DT.crossSection u m).reducedMass)) ∧
    Real.sqrt (8 * u.keV * 1124656 / (Real.pi * (Reaction.DT.crossSection u m).reducedMass)) ≤ 478344961 := by
  have hmu : (Reaction.DT.crossSection u m).reducedMass = m.D * m.T / (m.D + m.T) * u.amu := rfl
  rw [hmu]
  obtain ⟨d1, d2⟩ := hm.D
  obtain ⟨t1, t2⟩ := hm.T
  norm_num at d1 d2 t1 t2
  have hD : 0 < m.D := by linarith
  have hT : 0 < m.T := by linarith
  refine kappa_bounds u m hm _ _ 1.207643655 1.207643708 _ _ ?_ ?_ (by norm_num) (by norm_num) (by norm_num)
    (by norm_num) (by norm_num) (by norm_num)
  · rw [le_div_iff₀ (by linarith)]
    have h1 : 0 ≤ (m.D - 2.0141017) * (m.T - 1.207643655) := mul_nonneg (by norm_num; linarith) (by norm_num; linarith)
    norm_num at h1 ⊢
    nlinarith
  · rw [div_le_iff₀ (by linarith)]
    have h1 : 0 ≤ (2.0141018 - m.D) * (m.T - 1.207643708) := mul_nonneg (by norm_num; linarith) (by norm_num; linarith)
    norm_num at h1 ⊢
    nlinarith

theorem kappaDD (hm : Measured u m) (r : Reaction) (hr : r = .DDn ∨ r = .DDp) :
    478336283 ≤ Real.sqrt (8 * u.keV * 937814 / (Real.pi * (r.crossSection u m).reducedMass)) ∧
    Real.sqrt (8 * u.keV * 937814 / (Real.pi * (r.crossSection u m).reducedMass)) ≤ 478336375 := by
  have hmu : (r.crossSection u m).reducedMass = m.D * m.D / (m.D + m.D) * u.amu := by
    rcases hr with rfl | rfl <;> rfl
  rw [hmu]
  obtain ⟨d1, d2⟩ := hm.D
  norm_num at d1 d2
  have hD : 0 < m.D := by linarith
  have e : m.D * m.D / (m.D + m.D) = m.D / 2 := by field_simp; ring
  rw [e]
  refine kappa_bounds u m hm _ _ 1.00705085 1.0070509 _ _ ?_ ?_ (by norm_num) (by norm_num) (by norm_num)
    (by norm_num) (by norm_num) (by norm_num)
  · norm_num; linarith
  · norm_num; linarith

theorem theta_DT (t : ℝ) (ht : 0 < t) :
    Spec.boschHaleDT t = 1.17302e-9 * (34.3827 ^ 2 / 4) / (Real.sqrt 1124656 * 10 ^ 6) *
      t ^ (-(3 : ℝ) / 2) / kDT.G (1 / t) := by
  unfold Spec.boschHaleDT
  apply boschHale_G kDT _ _ _ _ _ _ _ _ _ t ht
  · norm_num
  · norm_num [kDT]
  · decide
  · decide
  · norm_num [kDT, KCoef.u, KCoef.toQ, peval]; positivity
  · norm_num [kDT, KCoef.v, KCoef.toQ, peval]; positivity
  · norm_num [kDT, KCoef.u, KCoef.v, KCoef.toQ, peval]
    field_simp
    ring

theorem theta_DDn (t : ℝ) (ht : 0 < t) (h100 : t ≤ 100) :
    Spec.boschHaleDDn t = 5.43360e-12 * (31.3970 ^ 2 / 4) / (Real.sqrt 937814 * 10 ^ 6) *
      t ^ (-(3 : ℝ) / 2) / kDDn.G (1 / t) := by
  unfold Spec.boschHaleDDn
  have hb : 1 / 100 ≤ 1 / t := one_div_le_one_div_of_le ht h100
  have hb0 : 0 < 1 / t := by positivity
  have hv : 0 < kDDn.v (1 / t) := by
    norm_num [kDDn, KCoef.v, KCoef.toQ, peval] at hb hb0 ⊢
    nlinarith
  apply boschHale_G kDDn _ _ _ _ _ _ _ _ _ t ht
  · norm_num
  · norm_num [kDDn]
  · decide
  · decide
  · norm_num [kDDn, KCoef.u, KCoef.toQ, peval] at hb hb0 ⊢
    have : 0 < -2964 + t⁻¹ * (1824440 + t⁻¹ * 1000000000) := by nlinarith
    positivity
  · exact hv
  · have hd : 0 < 1 + 7.68222e-3 * t + (-2.964e-6) * t ^ 2 + 0 * t ^ 3 := by norm_num; nlinarith
    have hv' : kDDn.v (1 / t) = 10 ^ 9 * (1 + 7.68222e-3 * t + (-2.964e-6) * t ^ 2 + 0 * t ^ 3) / t ^ 2 := by
      norm_num [kDDn, KCoef.v, KCoef.toQ, peval]
      field_simp
      ring
    have hu' : kDDn.u (1 / t) = 10 ^ 9 * ((1 + 7.68222e-3 * t + (-2.964e-6) * t ^ 2 + 0 * t ^ 3) -
        (5.85778e-3 * t + 0 * t ^ 2 + 0 * t ^ 3)) / t ^ 3 := by
      norm_num [kDDn, KCoef.u, KCoef.toQ, peval]
      field_simp
      ring
    rw [hv', hu']
    generalize (1 : ℝ) + 7.68222e-3 * t + (-2.964e-6) * t ^ 2 + 0 * t ^ 3 = d at *
    field_simp

theorem theta_DDp (t : ℝ) (ht : 0 < t) :
    Spec.boschHaleDDp t = 5.65718e-12 * (31.3970 ^ 2 / 4) / (Real.sqrt 937814 * 10 ^ 6) *
      t ^ (-(3 : ℝ) / 2) / kDDp.G (1 / t) := by
  unfold Spec.boschHaleDDp
  have hb0 : 0 < 1 / t := by positivity
  have hv : 0 < kDDp.v (1 / t) := by
    norm_num [kDDp, KCoef.v, KCoef.toQ, peval] at hb0 ⊢
    positivity
  apply boschHale_G kDDp _ _ _ _ _ _ _ _ _ t ht
  · norm_num
  · norm_num [kDDp]
  · decide
  · decide
  · norm_num [kDDp, KCoef.u, KCoef.toQ, peval] at hb0 ⊢
    have : 0 < 10506 + t⁻¹ * (-1421000 + t⁻¹ * 1000000000) := by nlinarith [sq_nonneg (t⁻¹ - 7e-4)]
    positivity
  · exact hv
  · have hd : 0 < 1 + 1.99167e-3 * t + 1.0506e-5 * t ^ 2 + 0 * t ^ 3 := by norm_num; positivity
    have hv' : kDDp.v (1 / t) = 10 ^ 9 * (1 + 1.99167e-3 * t + 1.0506e-5 * t ^ 2 + 0 * t ^ 3) / t ^ 2 := by
      norm_num [kDDp, KCoef.v, KCoef.toQ, peval]
      field_simp
      ring
    have hu' : kDDp.u (1 / t) = 10 ^ 9 * ((1 + 1.99167e-3 * t + 1.0506e-5 * t ^ 2 + 0 * t ^ 3) -
        (3.41267e-3 * t + 0 * t ^ 2 + 0 * t ^ 3)) / t ^ 3 := by
      norm_num [kDDp, KCoef.u, KCoef.toQ, peval]
      field_simp
      ring
    rw [hv', hu']
    generalize (1 : ℝ) + 1.99167e-3 * t + 1.0506e-5 * t ^ 2 + 0 * t ^ 3 = d at *
    field_simp

theorem dataDDn (hm : Measured u m) : NodeData cDDn Data.glDDn Data.ghDDn
    (expSum 1000 (wgt (npInterp (Reaction.DDn.crossSection u m).table)) logEnergy) kDDn.G := by
  have d0 : 0 < m.D := lt_of_lt_of_le (by norm_num) hm.D.1
  have e : (m.D + m.D) / m.D = 2 := by field_simp; norm_num
  exact nodeData u m.D m.D d0 d0 (by linarith) Data.ddnRows rowsOk_all.2.1 2 1 2 1
    (by norm_num) (by norm_num) (by rw [e]; norm_num) (by rw [e]; norm_num) cDDn xsAll_wDDn weight_sums.2.1
    (fun m j hm hj => (unpack_sum m j hm hj).2.1) kDDn (by decide) (by decide) rfl kCheck.2.1
    Data.yDDn Data.glDDn Data.ghDDn tableDDn

theorem dataDDp (hm : Measured u m) : NodeData cDDp Data.glDDp Data.ghDDp
    (expSum 1000 (wgt (npInterp (Reaction.DDp.crossSection u m).table)) logEnergy) kDDp.G := by
  have d0 : 0 < m.D := lt_of_lt_of_le (by norm_num) hm.D.1
  have e : (m.D + m.D) / m.D = 2 := by field_simp; norm_num
  exact nodeData u m.D m.D d0 d0 (by linarith) Data.ddpRows rowsOk_all.2.2.1 2 1 2 1
    (by norm_num) (by norm_num) (by rw [e]; norm_num) (by rw [e]; norm_num) cDDp xsAll_wDDp weight_sums.2.2
    (fun m j hm hj => (unpack_sum m j hm hj).2.2) kDDp (by decide) (by decide) rfl kCheck.2.2
    Data.yDDp Data.glDDp Data.ghDDp tableDDp

theorem measured_pos (hm : Measured u m) (r : Reaction) (hr : r = .DT ∨ r = .DDn ∨ r = .DDp) :
    0 < u.keV ∧ 0 < (r.crossSection u m).reducedMass := by
  have hD : 0 < m.D := lt_of_lt_of_le (by norm_num) hm.D.1
  have hT : 0 < m.T := lt_of_lt_of_le (by norm_num) hm.T.1
  have ha : 0 < u.amu := lt_of_lt_of_le (by norm_num) hm.amu.1
  refine ⟨lt_of_lt_of_le (by norm_num) hm.keV.1, ?_⟩
  rcases hr with rfl | rfl | rfl <;> simp only [Reaction.crossSection, CrossSection.load] <;> positivity

/-- Bounds of the D-T reactivity from bounds of the product of sum and denominator. -/
theorem value_DT (hm : Measured u m) (t Tlo Thi lo hi : ℝ) (ht : 0 < t) (hT : 0 ≤ Tlo)
    (h : Tlo ≤ 2 * 10 ^ 52 * 2 ^ 96 * 10 ^ 12 * (expSum 1000 (wgt (npInterp
        (Reaction.DT.crossSection u m).table)) logEnergy (1 / t) * kDT.G (1 / t)) ∧
      2 * 10 ^ 52 * 2 ^ 96 * 10 ^ 12 * (expSum 1000 (wgt (npInterp
        (Reaction.DT.crossSection u m).table)) logEnergy (1 / t) * kDT.G (1 / t)) ≤ 1.0000201 * Thi)
    (g1 : lo * (1.17302e-9 * (34.3827 ^ 2 / 4)) * (2 * 10 ^ 52 * 2 ^ 96 * 10 ^ 12) ≤ 478344870 * 10 ^ 6 * Tlo)
    (g2 : 478344961 * 10 ^ 6 * (1.0000201 * Thi) ≤
      hi * (1.17302e-9 * (34.3827 ^ 2 / 4)) * (2 * 10 ^ 52 * 2 ^ 96 * 10 ^ 12)) :
    lo * Spec.boschHaleDT t ≤ xsValue u m .DT t ∧ xsValue u m .DT t ≤ hi * Spec.boschHaleDT t := by
  obtain ⟨k1, k2⟩ := kappaDT u m hm
  obtain ⟨p1, p2⟩ := measured_pos u m hm .DT (Or.inl rfl)
  obtain ⟨hB, hX⟩ := ratio kDT 34.3827 1124656 1.17302e-9 (Reaction.DT.crossSection u m).reducedMass u.keV t
    (Spec.boschHaleDT t) (npInterp (Reaction.DT.crossSection u m).table) ht (by norm_num) (by norm_num)
    (by norm_num) p1 p2 (theta_DT t ht)
  refine assemble _ _ _ _ _ _ _ (10 ^ 12) (2 * 10 ^ 52 * 2 ^ 96) Tlo Thi _ _ lo hi ?_ (by positivity) k1 k2
    (by norm_num) (by norm_num) hB hX h.1 h.2 hT g1 g2
  have : 0 ≤ 2 * 10 ^ 52 * 2 ^ 96 * 10 ^ 12 * (expSum 1000 (wgt (npInterp
        (Reaction.DT.crossSection u m).table)) logEnergy (1 / t) * kDT.G (1 / t)) := hT.trans h.1
  exact nonneg_of_mul_nonneg_right this (by positivity)

theorem value_DDn (hm : Measured u m) (t Tlo Thi lo hi : ℝ) (ht : 0 < t) (h100 : t ≤ 100) (hT : 0 ≤ Tlo)
    (h : Tlo ≤ 2 * 10 ^ 52 * 2 ^ 96 * 10 ^ 12 * (expSum 1000 (wgt (npInterp
        (Reaction.DDn.crossSection u m).table)) logEnergy (1 / t) * kDDn.G (1 / t)) ∧
      2 * 10 ^ 52 * 2 ^ 96 * 10 ^ 12 * (expSum 1000 (wgt (npInterp
        (Reaction.DDn.crossSection u m).table)) logEnergy (1 / t) * kDDn.G (1 / t)) ≤ 1.0000201 * Thi)
    (g1 : lo * (5.43360e-12 * (31.3970 ^ 2 / 4)) * (2 * 10 ^ 52 * 2 ^ 96 * 10 ^ 12) ≤ 478336283 * 10 ^ 6 * Tlo)
    (g2 : 478336375 * 10 ^ 6 * (1.0000201 * Thi) ≤
      hi * (5.43360e-12 * (31.3970 ^ 2 / 4)) * (2 * 10 ^ 52 * 2 ^ 96 * 10 ^ 12)) :
    lo * Spec.boschHaleDDn t ≤ xsValue u m .DDn t ∧ xsValue u m .DDn t ≤ hi * Spec.boschHaleDDn t := by
  obtain ⟨k1, k2⟩ := kappaDD u m hm .DDn (Or.inl rfl)
  obtain ⟨p1, p2⟩ := measured_pos u m hm .DDn (Or.inr (Or.inl rfl))
  obtain ⟨hB, hX⟩ := ratio kDDn 31.3970 937814 5.43360e-12 (Reaction.DDn.crossSection u m).reducedMass u.keV t
    (Spec.boschHaleDDn t) (npInterp (Reaction.DDn.crossSection u m).table) ht (by norm_num) (by norm_num)
    (by norm_num) p1 p2 (theta_DDn t ht h100)
  refine assemble _ _ _ _ _ _ _ (10 ^ 12) (2 * 10 ^ 52 * 2 ^ 96) Tlo Thi _ _ lo hi ?_ (by positivity) k1 k2
    (by norm_num) (by norm_num) hB hX h.1 h.2 hT g1 g2
  have : 0 ≤ 2 * 10 ^ 52 * 2 ^ 96 * 10 ^ 12 * (expSum 1000 (wgt (npInterp
        (Reaction.DDn.crossSection u m).table)) logEnergy (1 / t) * kDDn.G (1 / t)) := hT.trans h.1
  exact nonneg_of_mul_nonneg_right this (by positivity)

theorem value_DDp (hm : Measured u m) (t Tlo Thi lo hi : ℝ) (ht : 0 < t) (hT : 0 ≤ Tlo)
    (h : Tlo ≤ 2 * 10 ^ 52 * 2 ^ 96 * 10 ^ 12 * (expSum 1000 (wgt (npInterp
        (Reaction.DDp.crossSection u m).table)) logEnergy (1 / t) * kDDp.G (1 / t)) ∧
      2 * 10 ^ 52 * 2 ^ 96 * 10 ^ 12 * (expSum 1000 (wgt (npInterp
        (Reaction.DDp.crossSection u m).table)) logEnergy (1 / t) * kDDp.G (1 / t)) ≤ 1.0000201 * Thi)
    (g1 : lo * (5.65718e-12 * (31.3970 ^ 2 / 4)) * (2 * 10 ^ 52 * 2 ^ 96 * 10 ^ 12) ≤ 478336283 * 10 ^ 6 * Tlo)
    (g2 : 478336375 * 10 ^ 6 * (1.0000201 * Thi) ≤
      hi * (5.65718e-12 * (31.3970 ^ 2 / 4)) * (2 * 10 ^ 52 * 2 ^ 96 * 10 ^ 12)) :
    lo * Spec.boschHaleDDp t ≤ xsValue u m .DDp t ∧ xsValue u m .DDp t ≤ hi * Spec.boschHaleDDp t := by
  obtain ⟨k1, k2⟩ := kappaDD u m hm .DDp (Or.inr rfl)
  obtain ⟨p1, p2⟩ := measured_pos u m hm .DDp (Or.inr (Or.inr rfl))
  obtain ⟨hB, hX⟩ := ratio kDDp 31.3970 937814 5.65718e-12 (Reaction.DDp.crossSection u m).reducedMass u.keV t
    (Spec.boschHaleDDp t) (npInterp (Reaction.DDp.crossSection u m).table) ht (by norm_num) (by norm_num)
    (by norm_num) p1 p2 (theta_DDp t ht)
  refine assemble _ _ _ _ _ _ _ (10 ^ 12) (2 * 10 ^ 52 * 2 ^ 96) Tlo Thi _ _ lo hi ?_ (by positivity) k1 k2
    (by norm_num) (by norm_num) hB hX h.1 h.2 hT g1 g2
  have : 0 ≤ 2 * 10 ^ 52 * 2 ^ 96 * 10 ^ 12 * (expSum 1000 (wgt (npInterp
        (Reaction.DDp.crossSection u m).table)) logEnergy (1 / t) * kDDp.G (1 / t)) := hT.trans h.1
  exact nonneg_of_mul_nonneg_right this (by positivity)

theorem inv_range (t a : ℝ) (h1 : a ≤ t) (h2 : t ≤ 100) (ha : 2 / 10 ≤ a) :
    1 / 100 ≤ 1 / t ∧ 1 / t < 512 / 100 ∧ 6400 * (1 / t) ≤ 6400 / a := by
  have ht : 0 < t := by linarith
  refine ⟨one_div_le_one_div_of_le ht h2, ?_, ?_⟩
  · rw [div_lt_div_iff₀ ht (by norm_num)]; linarith
  · rw [mul_one_div]
    exact div_le_div_of_nonneg_left (by norm_num) (by linarith) h1

theorem bounds_DT (hm : Measured u m) (t : ℝ) (h1 : 2 / 10 ≤ t) (h2 : t ≤ 100) :
    0.9926 * Spec.boschHaleDT t ≤ xsValue u m .DT t ∧ xsValue u m .DT t ≤ 1.0036 * Spec.boschHaleDT t := by
  obtain ⟨i1, i2, i3⟩ := inv_range t _ h1 h2 le_rfl
  have := spans_sound (dataDT u m hm) _ _ 32000 (by norm_num) spansDT (1 / t) i1 i2
    (i3.trans (by norm_num))
  exact value_DT u m hm t _ _ _ _ (by linarith) (Nat.cast_nonneg _) this (by norm_num) (by norm_num)

theorem bounds_DDn (hm : Measured u m) (t : ℝ) (h1 : 3 / 10 ≤ t) (h2 : t ≤ 100) :
    0.9745 * Spec.boschHaleDDn t ≤ xsValue u m .DDn t ∧ xsValue u m .DDn t ≤ 1.0282 * Spec.boschHaleDDn t := by
  obtain ⟨i1, i2, i3⟩ := inv_range t _ h1 h2 (by norm_num)
  have := spans_sound (dataDDn u m hm) _ _ 21334 (by norm_num) spansDDn (1 / t) i1 i2
    (i3.trans (by norm_num))
  exact value_DDn u m hm t _ _ _ _ (by linarith) h2 (Nat.cast_nonneg _) this (by norm_num) (by norm_num)

theorem bounds_DDn' (hm : Measured u m) (t : ℝ) (h1 : 2 / 10 ≤ t) (h2 : t ≤ 100) :
    0.9745 * Spec.boschHaleDDn t ≤ xsValue u m .DDn t ∧ xsValue u m .DDn t ≤ 1.115 * Spec.boschHaleDDn t := by
  obtain ⟨i1, i2, i3⟩ := inv_range t _ h1 h2 le_rfl
  have := spans_sound (dataDDn u m hm) _ _ 32000 (by norm_num) spansDDn' (1 / t) i1 i2
    (i3.trans (by norm_num))
  exact value_DDn u m hm t _ _ _ _ (by linarith) h2 (Nat.cast_nonneg _) this (by norm_num) (by norm_num)

theorem bounds_DDp (hm : Measured u m) (t : ℝ) (h1 : 6 / 10 ≤ t) (h2 : t ≤ 100) :
    0.9808 * Spec.boschHaleDDp t ≤ xsValue u m .DDp t ∧ xsValue u m .DDp t ≤ 1.0181 * Spec.boschHaleDDp t := by
  obtain ⟨i1, i2, i3⟩ := inv_range t _ h1 h2 (by norm_num)
  have := spans_sound (dataDDp u m hm) _ _ 10667 (by norm_num) spansDDp (1 / t) i1 i2
    (i3.trans (by norm_num))
  exact value_DDp u m hm t _ _ _ _ (by linarith) (Nat.cast_nonneg _) this (by norm_num) (by norm_num)

theorem bounds_DDp' (hm : Measured u m) (t : ℝ) (h1 : 2 / 10 ≤ t) (h2 : t ≤ 100) :
    0.9808 * Spec.boschHaleDDp t ≤ xsValue u m .DDp t ∧ xsValue u m .DDp t ≤ 1.16 * Spec.boschHaleDDp t := by
  obtain ⟨i1, i2, i3⟩ := inv_range t _ h1 h2 le_rfl
  have := spans_sound (dataDDp u m hm) _ _ 32000 (by norm_num) spansDDp' (1 / t) i1 i2
    (i3.trans (by norm_num))
  exact value_DDp u m hm t _ _ _ _ (by linarith) (Nat.cast_nonneg _) this (by norm_num) (by norm_num)

/-! ### C81 -/

theorem agree_of (h : PhysicalData u m) (r : Reaction) (hr : hasBoschHale r = true) (B : ℝ → ℝ)
    (lo hi a : ℝ) (ha : 2 / 10 ≤ a)
    (hB : ∀ t, 0 < t → t ≤ 960 → boschHaleValue r t = B t ∧ 0 < B t)
    (hb : ∀ t, a ≤ t → t ≤ 100 → lo * B t ≤ xsValue u m r t ∧ xsValue u m r t ≤ hi * B t)
    (ts : List ℝ) (hne : ts ≠ []) (hts : ∀ t ∈ ts, a ≤ t ∧ t ≤ 100) :
    MethodsAgree u m r lo hi ts := by
  have h0 : ∀ t ∈ ts, 0 < t := fun t ht => by linarith [(hts t ht).1]
  have e2 := C51_dispatch u m h .BOSCH_HALE r ts hne (fun t ht => by
    unfold goodTemperature
    rw [if_pos ⟨by decide, hr⟩]
    exact fun _ => (hts t ht).2.trans (by norm_num))
  refine ⟨_, _, (C53_reactivity u m h r ts h0).1, e2, by simp, ?_⟩
  rw [List.forall₂_map_left_iff, List.forall₂_map_right_iff, List.forall₂_same]
  intro t ht
  rw [if_pos ⟨by decide, hr⟩]
  obtain ⟨b1, b2⟩ := hB t (h0 t ht) ((hts t ht).2.trans (by norm_num))
  rw [b1]
  exact ⟨b2, hb t (hts t ht).1 (hts t ht).2⟩

theorem value_bh (t : ℝ) (ht : 0 < t) (h : t ≤ 960) :
    (boschHaleValue .DT t = Spec.boschHaleDT t ∧ 0 < Spec.boschHaleDT t) ∧
    (boschHaleValue .DDn t = Spec.boschHaleDDn t ∧ 0 < Spec.boschHaleDDn t) ∧
    (boschHaleValue .DDp t = Spec.boschHaleDDp t ∧ 0 < Spec.boschHaleDDp t) := by
  have h0 : ¬ t ≤ 0 := not_le.2 ht
  refine ⟨⟨by simp [boschHaleValue, h0], (C52_DT t ht).2⟩, ⟨by simp [boschHaleValue, h0], (C52_DDn t ht h).2⟩,
    ⟨by simp [boschHaleValue, h0], (C52_DDp t ht).2⟩⟩

/-- **C81**, D-T: at every temperature of the validity range of Bosch-Hale, 0.2 to 100 keV, the reactivity
from the tabulated cross sections is within -0.74 % and +0.36 % of Bosch-Hale. -/
theorem C81_DT (h : PhysicalData u m) (hm : Measured u m) (ts : List ℝ) (hne : ts ≠ [])
    (hts : ∀ t ∈ ts, 2 / 10 ≤ t ∧ t ≤ 100) : MethodsAgree u m .DT 0.9926 1.0036 ts :=
  agree_of u m h .DT rfl _ _ _ _ le_rfl (fun t h1 h2 => (value_bh t h1 h2).1) (bounds_DT u m hm) ts hne hts

/-- **C81**, D-D with a neutron: within -2.55 % and +2.82 % from 0.3 to 100 keV, and up to +11.5 % down to
0.2 keV. -/
theorem C81_DDn (h : PhysicalData u m) (hm : Measured u m) (ts : List ℝ) (hne : ts ≠ []) :
    ((∀ t ∈ ts, 3 / 10 ≤ t ∧ t ≤ 100) → MethodsAgree u m .DDn 0.9745 1.0282 ts) ∧
    ((∀ t ∈ ts, 2 / 10 ≤ t ∧ t ≤ 100) → MethodsAgree u m .DDn 0.9745 1.115 ts) :=
  ⟨agree_of u m h .DDn rfl _ _ _ _ (by norm_num) (fun t h1 h2 => (value_bh t h1 h2).2.1) (bounds_DDn u m hm)
    ts hne,
   agree_of u m h .DDn rfl _ _ _ _ le_rfl (fun t h1 h2 => (value_bh t h1 h2).2.1) (bounds_DDn' u m hm)
    ts hne⟩

/-- **C81**, D-D with a proton: within -1.92 % and +1.81 % from 0.6 to 100 keV, and up to +16 % down to
0.2 keV. -/
theorem C81_DDp (h : PhysicalData u m) (hm : Measured u m) (ts : List ℝ) (hne : ts ≠ []) :
    ((∀ t ∈ ts, 6 / 10 ≤ t ∧ t ≤ 100) → MethodsAgree u m .DDp 0.9808 1.0181 ts) ∧
    ((∀ t ∈ ts, 2 / 10 ≤ t ∧ t ≤ 100) → MethodsAgree u m .DDp 0.9808 1.16 ts) :=
  ⟨agree_of u m h .DDp rfl _ _ _ _ (by norm_num) (fun t h1 h2 => (value_bh t h1 h2).2.2) (bounds_DDp u m hm)
    ts hne,
   agree_of u m h .DDp rfl _ _ _ _ le_rfl (fun t h1 h2 => (value_bh t h1 h2).2.2) (bounds_DDp' u m hm)
    ts hne⟩

/-! ### Where they do not agree better -/

/-- At a node. -/
theorem node_value {cOf : ℕ → ℕ} {gl gh : List (List ℕ)} {F G : ℝ → ℝ} (d : NodeData cOf gl gh F G)
    (i j : ℕ) (hi : i < 66) (hj : j < 9) (tlo thi : ℕ)
    (h : (decide (tlo ≤ cOf (get2 Data.xsAcc5 i j) * get2 gl i j) &&
      decide ((cOf (get2 Data.xsAcc5 i j) + 98304 * 2 ^ 100) * get2 gh i j ≤ thi)) = true) (t : ℝ)
    (ht : 1 / t = (63 + i) * 2 ^ j / 6400) :
    (tlo : ℝ) ≤ 2 * 10 ^ 52 * 2 ^ 96 * 10 ^ 12 * (F (1 / t) * G (1 / t)) ∧
      2 * 10 ^ 52 * 2 ^ 96 * 10 ^ 12 * (F (1 / t) * G (1 / t)) ≤ 1.0000201 * thi := by
  rw [Bool.and_eq_true, decide_eq_true_eq, decide_eq_true_eq] at h
  have c1 := (Nat.cast_le (α := ℝ)).2 h.1
  have c2 := (Nat.cast_le (α := ℝ)).2 h.2
  simp only [Nat.cast_mul, Nat.cast_add, Nat.cast_pow, Nat.cast_ofNat] at c1 c2
  have f1 := d.F_lo i j hi hj
  have f2 := d.F_hi i j hi hj
  have g1 := d.G_lo i j hi hj
  have g2 := d.G_hi i j hi hj
  rw [ht]
  generalize F ((63 + i) * 2 ^ j / 6400) = X at *
  generalize G ((63 + i) * 2 ^ j / 6400) = Y at *
  have n1 : (0 : ℝ) ≤ cOf (get2 Data.xsAcc5 i j) := Nat.cast_nonneg _
  have n2 : (0 : ℝ) ≤ get2 gl i j := Nat.cast_nonneg _
  have n3 : (0 : ℝ) ≤ get2 gh i j := Nat.cast_nonneg _
  generalize (cOf (get2 Data.xsAcc5 i j) : ℝ) = A at *
  generalize (get2 gl i j : ℝ) = l at *
  generalize (get2 gh i j : ℝ) = k at *
  have hE : (0 : ℝ) ≤ 98304 * 2 ^ 100 := by positivity
  generalize (98304 : ℝ) * 2 ^ 100 = E at *
  generalize (2 : ℝ) * 10 ^ 52 * 2 ^ 96 = Θ at *
  generalize (10 : ℝ) ^ 12 = q at *
  constructor
  · calc (tlo : ℝ) ≤ A * l := c1
      _ ≤ Θ * X * (q * Y) := mul_le_mul f1 g1 n2 (n1.trans f1)
      _ = _ := by ring
  · calc Θ * q * (X * Y) = Θ * X * (q * Y) := by ring
      _ ≤ 1.0000201 * (A + E) * k := mul_le_mul f2 g2 (n2.trans g1) (by positivity)
      _ = 1.0000201 * ((A + E) * k) := by ring
      _ ≤ _ := mul_le_mul_of_nonneg_left c2 (by norm_num)

theorem differences (hm : Measured u m) :
    1.1101 * Spec.boschHaleDDn 0.2 ≤ xsValue u m .DDn 0.2 ∧
    1.1501 * Spec.boschHaleDDp 0.2 ≤ xsValue u m .DDp 0.2 ∧
    1.0271 * Spec.boschHaleDDn 32 ≤ xsValue u m .DDn 32 ∧
    xsValue u m .DDn (20 / 19) ≤ 0.9753 * Spec.boschHaleDDn (20 / 19) := by
  refine ⟨?_, ?_, ?_, ?_⟩
  · have := node_value (dataDDn u m hm) 62 8 (by norm_num) (by norm_num) (4926000 * 10 ^ 63) (4942387 * 10 ^ 63)
      (by decide +kernel) 0.2 (by norm_num)
    exact (value_DDn u m hm 0.2 _ _ _ 2 (by norm_num) (by norm_num) (Nat.cast_nonneg _) this (by norm_num)
      (by norm_num)).1
  · have := node_value (dataDDp u m hm) 62 8 (by norm_num) (by norm_num) (5330000 * 10 ^ 63) (5355561 * 10 ^ 63)
      (by decide +kernel) 0.2 (by norm_num)
    exact (value_DDp u m hm 0.2 _ _ _ 2 (by norm_num) (Nat.cast_nonneg _) this (by norm_num)
      (by norm_num)).1
  · have := node_value (dataDDn u m hm) 37 1 (by norm_num) (by norm_num) (4557500 * 10 ^ 63) (4942387 * 10 ^ 63)
      (by decide +kernel) 32 (by norm_num)
    exact (value_DDn u m hm 32 _ _ _ 2 (by norm_num) (by norm_num) (Nat.cast_nonneg _) this (by norm_num)
      (by norm_num)).1
  · have := node_value (dataDDn u m hm) 32 6 (by norm_num) (by norm_num) 0 (4326000 * 10 ^ 63)
      (by decide +kernel) (20 / 19) (by norm_num)
    exact (value_DDn u m hm (20 / 19) _ _ 0 _ (by norm_num) (by norm_num) (Nat.cast_nonneg _) this (by norm_num)
      (by norm_num)).2

/-- From the values to the calls. -/
theorem not_agree (h : PhysicalData u m) (r : Reaction) (hr : hasBoschHale r = true) (t b : ℝ) (ht : 0 < t)
    (h100 : t ≤ 960) (hb : boschHaleValue r t = b) (hb0 : 0 < b) (lo hi : ℝ)
    (hd : hi * b < xsValue u m r t ∨ xsValue u m r t < lo * b) : ¬ MethodsAgree u m r lo hi [t] := by
  rintro ⟨xs, bh, e1, e2, -, hf⟩
  rw [(C53_reactivity u m h r [t] (by simpa using ht)).1] at e1
  rw [C51_dispatch u m h .BOSCH_HALE r [t] (by simp) (fun t' ht' => by
    unfold goodTemperature
    rw [if_pos ⟨by decide, hr⟩]
    simp only [List.mem_singleton] at ht'
    subst ht'
    exact fun _ => h100)] at e2
  cases e1
  cases e2
  simp only [List.map_cons, List.map_nil, List.forall₂_cons, List.Forall₂.nil, and_true] at hf
  rw [if_pos ⟨by decide, hr⟩, hb] at hf
  unfold xsValue at hd
  rcases hd with hd | hd
  · exact absurd hf.2.2 (not_le.2 hd)
  · exact absurd hf.2.1 (not_le.2 hd)

/-- **C81**, the limits are real: at 0.2 keV, the lowest temperature for which Bosch-Hale is said to be valid,
the two D-D reactivities from cross sections are more than 11 % and 15 % above Bosch-Hale; at 32 keV the one
with a neutron is more than 2.7 % above, and at 20/19 keV more than 2.46 % below it (the bound of the
project's own comparison). -/
theorem C81_differences (h : PhysicalData u m) (hm : Measured u m) (lo hi : ℝ) :
    ¬ MethodsAgree u m .DDn lo 1.11 [0.2] ∧ ¬ MethodsAgree u m .DDp lo 1.15 [0.2] ∧
    ¬ MethodsAgree u m .DDn lo 1.027 [32] ∧ ¬ MethodsAgree u m .DDn (1 - 0.0246) hi [20 / 19] := by
  obtain ⟨d1, d2, d3, d4⟩ := differences u m hm
  obtain ⟨-, ⟨a1, a2⟩, ⟨a3, a4⟩⟩ := value_bh 0.2 (by norm_num) (by norm_num)
  obtain ⟨-, ⟨b1, b2⟩, -⟩ := value_bh 32 (by norm_num) (by norm_num)
  obtain ⟨-, ⟨c1, c2⟩, -⟩ := value_bh (20 / 19) (by norm_num) (by norm_num)
  refine ⟨not_agree u m h .DDn rfl _ _ (by norm_num) (by norm_num) a1 a2 _ _ (Or.inl ?_),
    not_agree u m h .DDp rfl _ _ (by norm_num) (by norm_num) a3 a4 _ _ (Or.inl ?_),
    not_agree u m h .DDn rfl _ _ (by norm_num) (by norm_num) b1 b2 _ _ (Or.inl ?_),
    not_agree u m h .DDn rfl _ _ (by norm_num) (by norm_num) c1 c2 _ _ (Or.inr ?_)⟩
  · exact lt_of_lt_of_le (mul_lt_mul_of_pos_right (by norm_num) a2) d1
  · exact lt_of_lt_of_le (mul_lt_mul_of_pos_right (by norm_num) a4) d2
  · exact lt_of_lt_of_le (mul_lt_mul_of_pos_right (by norm_num) b2) d3
  · exact lt_of_le_of_lt d4 (mul_lt_mul_of_pos_right (by norm_num) c2)

end
end TNS
