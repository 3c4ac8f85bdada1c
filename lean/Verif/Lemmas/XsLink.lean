import Verif.Lemmas.XsCompare
import Verif.Spec.Agreement
import Mathlib.Analysis.Real.Pi.Bounds
/-
From the sums at the nodes to the reactivities of the code.
-/

set_option autoImplicit false
set_option maxRecDepth 100000

namespace TNS
open Spec Set

/-- The trapezoidal rule as a weighted sum. -/
theorem trapezoid_weights (n : ℕ) (x g : ℕ → ℝ) :
    ∑ i ∈ Finset.range n, (x (i + 1) - x i) * ((g i + g (i + 1)) / 2) =
      ∑ i ∈ Finset.range (n + 1), (x (min (i + 1) n) - x (i - 1)) / 2 * g i := by
  have e1 : ∑ i ∈ Finset.range (n + 1), (x (min (i + 1) n) - x (i - 1)) / 2 * g i =
      ∑ i ∈ Finset.range (n + 1), (x (min (i + 1) n) - x i) / 2 * g i +
      ∑ i ∈ Finset.range (n + 1), (x i - x (i - 1)) / 2 * g i := by
    rw [← Finset.sum_add_distrib]
    exact Finset.sum_congr rfl (fun i _ => by ring)
  rw [e1, Finset.sum_range_succ, Finset.sum_range_succ' (fun i => (x i - x (i - 1)) / 2 * g i)]
  have h1 : min (n + 1) n = n := by omega
  rw [h1]
  simp only [sub_self, zero_div, zero_mul, add_zero, Nat.add_sub_cancel, Nat.zero_sub]
  rw [← Finset.sum_add_distrib]
  refine Finset.sum_congr rfl (fun i hi => ?_)
  have h2 : min (i + 1) n = i + 1 := by have := Finset.mem_range.1 hi; omega
  rw [h2]
  ring

theorem maxwellAverage_expSum (μ keV : ℝ) (hk : 0 < keV) (σ : ℝ → ℝ) (t : ℝ) (ht : 0 < t) :
    maxwellAverage μ keV (t * keV) σ =
      Real.sqrt (8 / (Real.pi * μ)) * Real.sqrt keV * t ^ (-(3 : ℝ) / 2) *
        expSum 1000 (wgt σ) logEnergy (1 / t) := by
  have hx : ∀ i, -(logEnergy i * keV) / (t * keV) = -(logEnergy i * (1 / t)) := by
    intro i; field_simp
  have hkk : keV ^ (-(3 : ℝ) / 2) * keV ^ 2 = Real.sqrt keV := by
    rw [Real.sqrt_eq_rpow, ← Real.rpow_natCast, ← Real.rpow_add hk]
    norm_num
  have e1 : ∑ i ∈ Finset.range 999, (logEnergy (i + 1) * keV - logEnergy i * keV) *
      ((σ (logEnergy i) * (logEnergy i * keV) * Real.exp (-(logEnergy i * (1 / t))) +
        σ (logEnergy (i + 1)) * (logEnergy (i + 1) * keV) * Real.exp (-(logEnergy (i + 1) * (1 / t)))) / 2) =
      keV ^ 2 * expSum 1000 (wgt σ) logEnergy (1 / t) := by
    have := trapezoid_weights 999 logEnergy (fun i => σ (logEnergy i) * logEnergy i *
      Real.exp (-(logEnergy i * (1 / t))))
    unfold expSum
    have e2 : ∑ i ∈ Finset.range 1000, wgt σ i * Real.exp (-(logEnergy i * (1 / t))) =
        ∑ i ∈ Finset.range (999 + 1), (logEnergy (min (i + 1) 999) - logEnergy (i - 1)) / 2 *
        (σ (logEnergy i) * logEnergy i * Real.exp (-(logEnergy i * (1 / t)))) := by
      refine Finset.sum_congr rfl (fun i _ => ?_)
      unfold wgt; ring
    rw [e2, ← this, Finset.mul_sum]
    refine Finset.sum_congr rfl (fun i _ => ?_)
    ring
  unfold maxwellAverage
  simp only [hx]
  rw [e1, Real.mul_rpow ht.le hk.le, ← hkk]
  ring

/-- The table of a loaded file. -/
theorem load_table (u : SI) (m1 m2 : ℝ) (h1 : 0 < m1) (h2 : 0 < m2) (rows : List (Nat × Nat)) :
    (CrossSection.load u m1 m2 (genfromtxt rows)).table =
      rows.dropLast.map (scaleRow (1 / ((m1 + m2) / m2) / 10 ^ 9) (1 / 10 ^ 78)) := by
  unfold CrossSection.load genfromtxt
  rw [List.map_map]
  refine List.map_congr_left (fun p _ => ?_)
  simp only [Function.comp_apply, scaleRow, Prod.mk.injEq]
  constructor
  · rw [one_div_div]; norm_num; ring
  · norm_num; ring

theorem wgt_pos (σ : ℝ → ℝ) (hσ : ∀ e, 1 ≤ e → e ≤ 1000 → 0 < σ e) (i : ℕ) (hi : i < 1000) :
    0 < wgt σ i := by
  have hmem : 1 ≤ logEnergy i ∧ logEnergy i ≤ 1000 :=
    tGrid_mem _ (List.mem_map.2 ⟨i, List.mem_range.2 (by omega), rfl⟩)
  have mono : StrictMono logEnergy := strictMono_nat_of_lt_succ logEnergy_lt
  have hlt : logEnergy (i - 1) < logEnergy (min (i + 1) 999) := by
    apply mono
    omega
  unfold wgt
  have := hσ _ hmem.1 hmem.2
  have := logEnergy_pos i
  have : 0 < (logEnergy (min (i + 1) 999) - logEnergy (i - 1)) / 2 := by linarith
  positivity

/-- Assembling the data of a reaction. -/
theorem nodeData (u : SI) (m1 m2 : ℝ) (h1 : 0 < m1) (h2 : 0 < m2) (h5 : m1 ≤ 5 * m2)
    (rows : List (Nat × Nat)) (hr : rowsOk rows = true)
    (rlN rlD rhN rhD : ℕ) (hl : 0 < rlD) (hh : 0 < rhD)
    (hρl : (rlN : ℝ) / rlD ≤ (m1 + m2) / m2) (hρh : (m1 + m2) / m2 ≤ (rhN : ℝ) / rhD)
    (cOf : ℕ → ℕ) (hw : wCheck rlN rlD rhN rhD cOf rows.dropLast 1000000000 xsAll = true)
    (hsum : (xsAll.map fun p => cOf p.2.2).sum ≤ 2 ^ 100)
    (hun : ∀ m j : ℕ, m < 66 → j < 9 → cOf (get2 Data.xsAcc5 m j) =
      (xsAll.map fun p => nodePow (2 ^ 96) p.2.1 m j * cOf p.2.2).sum)
    (k : KCoef) (hN : 0 < k.aN) (hD : 0 < k.aD) (hlen : k.U.length = k.V.length + 1)
    (hk : k.check (63 / 6400) (512 / 100) = true) (y gl gh : List (List ℕ))
    (ht : KCoef.tableOk (2 ^ 200) (2 ^ 106 * 3) k y gl gh = true) :
    NodeData cOf gl gh (expSum 1000 (wgt (npInterp (CrossSection.load u m1 m2 (genfromtxt rows)).table))
      logEnergy) k.G := by
  have hρ : 0 < (m1 + m2) / m2 := by positivity
  have hcall := fun e he1 he2 => (call_ok u m1 m2 h1 h2 h5 rows hr e he1 he2).2
  have hwp := wgt_pos _ hcall
  have hs := load_sorted u m1 m2 h1 h2 rows hr
  rw [load_table u m1 m2 h1 h2] at hs
  have hg0 : GB 0 1000000000 := by
    unfold GB; rw [logEnergy_zero]; constructor <;> norm_num
  have hwb := fun q p hq => wCheck_sound _ hρ rlN rlD rhN rhD hl hh hρl hρh cOf rows.dropLast rows.dropLast []
    rfl hs 0 1000000000 xsAll (by rw [xsAll_length]) hg0 (fun q p hq => by
      have := (xsAll_row q p hq).1; rwa [zero_add]) hw q p hq
  simp only [zero_add] at hwb
  rw [← load_table u m1 m2 h1 h2] at hwb
  have hnode := node_sum cOf _ (fun q p hq => (hwb q p hq).1) (fun q p hq => (hwb q p hq).2)
  have hcheck := hk
  simp only [KCoef.check, Bool.and_eq_true] at hk
  obtain ⟨⟨hU, hV⟩, -⟩ := hk
  have cast1 : (((63 / 6400 : ℚ)) : ℝ) = 63 / 6400 := by norm_num
  have cast2 : (((512 / 100 : ℚ)) : ℝ) = 512 / 100 := by norm_num
  have hG : ∀ m j : ℕ, m < 66 → j < 9 →
      (get2 gl m j : ℝ) ≤ 10 ^ 12 * k.G ((63 + m) * 2 ^ j / 6400) ∧
      10 ^ 12 * k.G ((63 + m) * 2 ^ j / 6400) ≤ get2 gh m j := by
    intro m j hm hj
    have hm' := List.all_eq_true.1 ht m (List.mem_range.2 hm)
    have hm'' := List.all_eq_true.1 hm' j (List.mem_range.2 hj)
    have hI : (63 / 6400 : ℝ) ≤ (((63 + m) * 2 ^ j : ℕ) : ℝ) / 6400 ∧
        (((63 + m) * 2 ^ j : ℕ) : ℝ) / 6400 ≤ 512 / 100 := by
      have e1 : (63 + m) * 2 ^ j ≤ 128 * 2 ^ 8 :=
        Nat.mul_le_mul (by omega) (Nat.pow_le_pow_right (by norm_num) (by omega))
      have e2 : 63 * 1 ≤ (63 + m) * 2 ^ j := Nat.mul_le_mul (by omega) Nat.one_le_two_pow
      generalize (63 + m) * 2 ^ j = n at *
      have e1' : (n : ℝ) ≤ 32768 := by exact_mod_cast e1
      have e2' : (63 : ℝ) ≤ n := by exact_mod_cast e2
      constructor
      · gcongr
      · rw [div_le_iff₀ (by norm_num)]; norm_num; linarith
    have := KCoef.nodeOk_sound k hN hD hlen _ _ _ _
      (ppos_sound hU _ (by rw [cast1]; exact hI.1) (by rw [cast2]; exact hI.2))
      (ppos_sound hV _ (by rw [cast1]; exact hI.1) (by rw [cast2]; exact hI.2)) hm''
    have e : (((63 + m) * 2 ^ j : ℕ) : ℝ) = (63 + m) * 2 ^ j := by push_cast; ring
    rw [e] at this
    exact this
  refine ⟨fun β _ => expSum_pos 1000 (by norm_num) _ _ hwp β, fun β _ => Real.exp_pos _, ?_, ?_, ?_, ?_,
    fun m j hm hj => (hG m j hm hj).1, fun m j hm hj => (hG m j hm hj).2⟩
  · exact (convexOn_log_expSum 1000 (by norm_num) _ _ hwp).subset (subset_univ _) (convex_Icc _ _)
  · have := k.concaveOn_log_G _ _ hcheck
    rwa [cast1, cast2] at this
  · intro m j hm hj
    rw [hun m j hm hj]
    exact (hnode m j hm hj).1
  · intro m j hm hj
    rw [hun m j hm hj]
    refine (hnode m j hm hj).2.trans (mul_le_mul_of_nonneg_left ?_ (by norm_num))
    have : ((xsAll.map fun p => cOf p.2.2).sum : ℝ) ≤ 2 ^ 100 := by
      have := (Nat.cast_le (α := ℝ)).2 hsum
      simpa only [Nat.cast_pow, Nat.cast_ofNat] using this
    have := mul_le_mul_of_nonneg_left this (by norm_num : (0 : ℝ) ≤ 98304)
    exact add_le_add_right this _

/-- The Bosch-Hale formula in terms of `G`. -/
theorem boschHale_G (k : KCoef) (bg mrc2 c1 c2 c3 c4 c5 c6 c7 t : ℝ) (ht : 0 < t) (hm : 0 < mrc2)
    (hbg : (k.aN : ℝ) / k.aD = bg ^ 2 / 4) (hN : 0 < k.aN) (hD : 0 < k.aD)
    (hu : 0 < k.u (1 / t)) (hv : 0 < k.v (1 / t))
    (hθ : 1 / t * (1 - (c2 * t + c4 * t ^ 2 + c6 * t ^ 3) / (1 + c3 * t + c5 * t ^ 2 + c7 * t ^ 3)) =
      k.u (1 / t) / k.v (1 / t)) :
    Spec.boschHale bg mrc2 c1 c2 c3 c4 c5 c6 c7 t =
      c1 * (bg ^ 2 / 4) / (Real.sqrt mrc2 * 10 ^ 6) * t ^ (-(3 : ℝ) / 2) / k.G (1 / t) := by
  have hc : 0 < k.chi (1 / t) := Real.exp_pos _
  have hcube := k.chi_cube (1 / t) hN hD hu hv
  rw [hbg] at hcube
  have hbg0 : 0 < bg ^ 2 / 4 := by
    rw [← hbg]
    have : (0 : ℝ) < k.aN := by exact_mod_cast hN
    have : (0 : ℝ) < k.aD := by exact_mod_cast hD
    positivity
  have hbgne : bg ≠ 0 := by rintro rfl; norm_num at hbg0
  unfold Spec.boschHale
  simp only
  generalize (1 - (c2 * t + c4 * t ^ 2 + c6 * t ^ 3) / (1 + c3 * t + c5 * t ^ 2 + c7 * t ^ 3)) = w at *
  have hw : w = t * (k.u (1 / t) / k.v (1 / t)) := by rw [← hθ]; field_simp
  have hw0 : 0 < w := by rw [hw]; positivity
  have hθ2 : t / w = bg ^ 2 / 4 / k.chi (1 / t) ^ 3 := by
    rw [hcube, hw]; field_simp
  have hξ : (bg ^ 2 / (4 * (t / w))) ^ ((1 : ℝ) / 3) = k.chi (1 / t) := by
    have e : bg ^ 2 / (4 * (t / w)) = k.chi (1 / t) ^ 3 := by
      rw [hθ2]; field_simp
    rw [e, ← Real.rpow_natCast, ← Real.rpow_mul hc.le]
    norm_num
  rw [hξ, hθ2, k.G_eq]
  have ht3 : t ^ (-(3 : ℝ) / 2) = 1 / Real.sqrt (t ^ 3) := by
    rw [Real.sqrt_eq_rpow, ← Real.rpow_natCast, ← Real.rpow_mul ht.le, one_div, ← Real.rpow_neg ht.le]
    norm_num
  rw [ht3, Real.sqrt_div hc.le, Real.sqrt_mul hm.le, show (-3 : ℝ) * k.chi (1 / t) = -(3 * k.chi (1 / t)) by ring,
    Real.exp_neg]
  have s0 : 0 < Real.sqrt (k.chi (1 / t)) := Real.sqrt_pos.2 hc
  have hs : k.chi (1 / t) = Real.sqrt (k.chi (1 / t)) ^ 2 := (Real.sq_sqrt hc.le).symm
  have e3 : k.chi (1 / t) ^ 3 = Real.sqrt (k.chi (1 / t)) ^ 6 := by
    conv_lhs => rw [hs]
    ring
  rw [e3]
  generalize Real.sqrt (k.chi (1 / t)) = s at *
  have hX := Real.exp_pos (3 * k.chi (1 / t))
  generalize Real.exp (3 * k.chi (1 / t)) = X at *
  have m0 : 0 < Real.sqrt mrc2 := Real.sqrt_pos.2 hm
  generalize Real.sqrt mrc2 = q at *
  have t0 : 0 < Real.sqrt (t ^ 3) := Real.sqrt_pos.2 (by positivity)
  generalize Real.sqrt (t ^ 3) = r at *
  field_simp

/-- The ratio of the two reactivities. -/
theorem ratio (k : KCoef) (bg mrc2 c1 μ keV t B : ℝ) (σ : ℝ → ℝ) (ht : 0 < t) (hm : 0 < mrc2)
    (hbg : 0 < bg ^ 2 / 4) (hc1 : 0 < c1) (hk : 0 < keV) (hμ : 0 < μ)
    (hB : B = c1 * (bg ^ 2 / 4) / (Real.sqrt mrc2 * 10 ^ 6) * t ^ (-(3 : ℝ) / 2) / k.G (1 / t)) :
    0 < B ∧ maxwellAverage μ keV (t * keV) σ =
      B * (Real.sqrt (8 * keV * mrc2 / (Real.pi * μ)) * 10 ^ 6 / (c1 * (bg ^ 2 / 4)) *
        (expSum 1000 (wgt σ) logEnergy (1 / t) * k.G (1 / t))) := by
  have hp := Real.pi_pos
  have hbgne : bg ≠ 0 := by rintro rfl; norm_num at hbg
  have hG : 0 < k.G (1 / t) := Real.exp_pos _
  have q0 : 0 < Real.sqrt mrc2 := Real.sqrt_pos.2 hm
  have hr : 0 < t ^ (-(3 : ℝ) / 2) := Real.rpow_pos_of_pos ht _
  constructor
  · rw [hB]; positivity
  · rw [maxwellAverage_expSum μ keV hk σ t ht, hB]
    have e : 8 * keV * mrc2 / (Real.pi * μ) = 8 / (Real.pi * μ) * keV * mrc2 := by ring
    rw [e, Real.sqrt_mul (by positivity), Real.sqrt_mul (by positivity)]
    generalize Real.sqrt (8 / (Real.pi * μ)) = a
    generalize Real.sqrt keV = b
    generalize Real.sqrt mrc2 = q at *
    generalize t ^ (-(3 : ℝ) / 2) = r at *
    generalize k.G (1 / t) = G at *
    field_simp

end TNS
