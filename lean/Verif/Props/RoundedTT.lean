import Verif.Lemmas.TTGrid
import Verif.Spec.RoundedEnergy
import Verif.Props.RoundedSpectra
/-
C107: the T-T neutron spectrum in floating point, first part: the interpolated table.
-/

set_option autoImplicit false

namespace TNS
open Spec
noncomputable section

section
variable {A : Arith} {u : ℝ}

/-- A scale factor computed by pint. -/
theorem scaled_close (hA : StandardModel A u) (hu : u ≤ 1 / 10 ^ 10) {k k' x : ℝ} (hk : 0 < k)
    (h : |k' - k| ≤ 10 * u * k) (hx : 0 < x) : LC (12.3 * u) (A.rd (A.rd x * k')) (x * k) := by
  have h0 := hA.u_nonneg
  have hu' : u ≤ 1 / 100 := by linarith
  have a1 : LC (1.02 * u) (A.rd x) x := LC.rd hA hu' le_rfl hx
  have a2 := LC.of_rel hk (by linarith) h
  have a3 := LC.round hA hu' le_rfl (a1.mul a2)
  exact a3.mono (by linarith)

theorem interpolate_ok {ke ks t : ℝ} {e g : ℕ → ℝ} (he : ttEnergyR A ke = (List.range 500).map e)
    (es : ∀ i j : ℕ, i < j → j < 500 → e i < e j) (hg : ttTemperaturesR A = (List.range 40).map g)
    (gs : ∀ i j : ℕ, i < j → j < 40 → g i < g j) (a : g 0 ≤ t) (b : t ≤ g 39) :
    ∃ q : ℕ → ℝ, ttInterpolateR A ke ks t = .ok ((List.range 500).map q) ∧ ∀ k i : ℕ,
      findInterval ((List.range 500).map e) (e k) = i →
      q k = bilinearR A (((ttIntensitiesR A ks).getD i []).getD (findInterval ((List.range 40).map g) t) 0)
        (((ttIntensitiesR A ks).getD i []).getD (findInterval ((List.range 40).map g) t + 1) 0)
        (((ttIntensitiesR A ks).getD (i + 1) []).getD (findInterval ((List.range 40).map g) t) 0)
        (((ttIntensitiesR A ks).getD (i + 1) []).getD (findInterval ((List.range 40).map g) t + 1) 0)
        (normDistR A ((List.range 500).map e) i (e k))
        (normDistR A ((List.range 40).map g) (findInterval ((List.range 40).map g) t) t) := by
  unfold ttInterpolateR
  rw [he, hg]
  have pw : ∀ (n : ℕ) (f : ℕ → ℝ), (∀ i j : ℕ, i < j → j < n → f i < f j) →
      ((List.range n).map f).Pairwise (· < ·) := by
    intro n f hf
    rw [List.pairwise_map]
    refine List.pairwise_lt_range.imp_of_mem ?_
    intro i j hi hj hij
    exact hf i j hij (List.mem_range.1 hj)
  have c1 : ¬ (¬ ((List.range 500).map e).Pairwise (· < ·) ∨ ¬ ((List.range 40).map g).Pairwise (· < ·)) := by
    rintro (h | h)
    · exact h (pw _ _ es)
    · exact h (pw _ _ gs)
  have hh : ((List.range 40).map g).headD 0 = g 0 := by
    rw [List.range_succ_eq_map, List.map_cons, List.headD_cons]
  have hl : ((List.range 40).map g).getLastD 0 = g 39 := by
    rw [List.range_succ, List.map_append]
    simp
  rw [if_neg c1, hh, hl, if_neg (by push Not; exact ⟨a, b⟩), List.map_map]
  refine ⟨_, rfl, ?_⟩
  rintro k i rfl
  rfl

/-- Inside the table: the computed intensities are those of a temperature that differs by rounding only. -/
theorem tt_table (hA : StandardModel A u) (hm : Monotone A.rd) (h1 : A.rd 1 = 1) (hu : u ≤ 1 / 10 ^ 10) {ke ks : ℝ}
    (hke : |ke - 1000| ≤ 10 * u * 1000) (hks : |ks - 1 / 1000| ≤ 10 * u * (1 / 1000)) {t : ℝ} (t1 : 1 ≤ t)
    (t2 : t ≤ 20) :
    ∃ (t' : ℝ) (e' e p' p : ℕ → ℝ), 1 ≤ t' ∧ t' ≤ 20 ∧ |t' - t| ≤ 500 * u ∧ (t = 1 → t' = 1) ∧ (t = 20 → t' = 20) ∧
      ttEnergyR A ke = (List.range 500).map e' ∧ ttInterpolateR A ke ks t = .ok ((List.range 500).map p') ∧
      (ttCall t').1 = (List.range 500).map (fun i => (e i, p i)) ∧
      (∀ i < 500, LC (12.3 * u) (e' i) (e i)) ∧ (∀ i < 499, e i + e (i + 1) ≤ 1000 * (e (i + 1) - e i)) ∧
      ∀ i < 500, LC (18.5 * u) (p' i) (p i) := by
  have h0 := hA.u_nonneg
  have hu1 := hA.u_lt_one
  have hu' : u ≤ 1 / 100 := by linarith
  -- energies
  set e : ℕ → ℝ := fun i => ((ttRow i).1 : ℝ) / 10 ^ 14 * 1000 with hedef
  set e' : ℕ → ℝ := fun i => A.rd (A.rd (((ttRow i).1 : ℝ) / 10 ^ 14) * ke) with hedef'
  have row0 : ∀ i < 500, (0 : ℝ) < ((ttRow i).1 : ℝ) / 10 ^ 14 := by
    intro i hi
    have := (ttIncr_spec 0 _ tt_incr).1 _ (ttRow_mem i hi)
    have : (0 : ℝ) < ((ttRow i).1 : ℝ) := by exact_mod_cast this
    positivity
  have le : ∀ i < 500, LC (12.3 * u) (e' i) (e i) := fun i hi => scaled_close hA hu (by norm_num) hke (row0 i hi)
  have gap : ∀ i < 499, e i + e (i + 1) ≤ 1000 * (e (i + 1) - e i) := by
    intro i hi
    have := (ttRow_gap i hi).2
    simp only [hedef]
    linarith
  have he' : ttEnergyR A ke = (List.range 500).map e' := by
    unfold ttEnergyR
    rw [tt_range, List.map_map]
    rfl
  have step : ∀ i < 499, e' i < e' (i + 1) := by
    intro i hi
    obtain ⟨_, a⟩ := abs_le.1 ((le i (by omega)).rel (by linarith))
    obtain ⟨b, _⟩ := abs_le.1 ((le (i + 1) (by omega)).rel (by linarith))
    have c1 := (le i (by omega)).2.1
    have c2 := (le (i + 1) (by omega)).2.1
    have k := gap i hi
    have k1 := mul_le_mul_of_nonneg_right hu c1.le
    have k2 := mul_le_mul_of_nonneg_right hu c2.le
    linarith
  have es : ∀ i j : ℕ, i < j → j < 500 → e' i < e' j := by
    intro i j hij
    induction j with
    | zero => omega
    | succ j ih =>
      intro hj
      rcases Nat.lt_succ_iff_lt_or_eq.1 hij with h | h
      · exact (ih h (by omega)).trans (step j (by omega))
      · rw [h]; exact step j (by omega)
  -- temperatures
  obtain ⟨g, hg, g0, g39, gerr, gs⟩ := ttTemperatures_close hA h1 hu
  obtain ⟨j1, j2, j3⟩ := findInterval_spec g t 40 (by norm_num) gs (by rw [g0]; exact t1)
    (by rw [show 40 - 1 = 39 by norm_num, g39]; exact t2)
  obtain ⟨q, ok, hq⟩ := interpolate_ok (ks := ks) (t := t) he' es hg gs (by rw [g0]; exact t1) (by rw [g39]; exact t2)
  set j := findInterval ((List.range 40).map g) t with hj
  have gl : g j < g (j + 1) := gs _ _ (by omega) j1
  have d0 : ((List.range 40).map g).getD j 0 = g j := getD_range_map g 40 j 0 (by omega)
  have d1 : ((List.range 40).map g).getD (j + 1) 0 = g (j + 1) := getD_range_map g 40 (j + 1) 0 j1
  obtain ⟨y0, y1⟩ := normDist_unit hA hm h1 (g := (List.range 40).map g) (i := j) (x := t) (by rw [d0, d1]; exact gl)
    (by rw [d0]; exact j2) (by rw [d1]; exact j3)
  set y := normDistR A ((List.range 40).map g) j t with hy
  have hstep : ttTemp (j + 1) - ttTemp j = 19 / 39 := by unfold ttTemp; push_cast; ring
  set t' := ttTemp j + y * (19 / 39) with ht'
  have tj : ttTemp j ≤ t' := by rw [ht']; linarith
  have tj1 : t' ≤ ttTemp (j + 1) := by rw [ht']; linarith
  have T1 : 1 ≤ ttTemp j := by unfold ttTemp; have : (0 : ℝ) ≤ j := Nat.cast_nonneg j; linarith
  have T2 : ttTemp (j + 1) ≤ 20 := by
    have : ((j + 1 : ℕ) : ℝ) ≤ 39 := by exact_mod_cast (by omega : j + 1 ≤ 39)
    unfold ttTemp; linarith
  -- the temperature meant
  have ydef : y = A.rd (A.rd (t - g j) / A.rd (g (j + 1) - g j)) := by rw [hy]; unfold normDistR; rw [d0, d1]
  have near : |t' - t| ≤ 500 * u := by
    obtain ⟨a1, a2⟩ := abs_le.1 (gerr j (by omega))
    obtain ⟨b1, b2⟩ := abs_le.1 (gerr (j + 1) j1)
    have D0 : 0 < g (j + 1) - g j := by linarith
    have D1 : g (j + 1) - g j ≤ 1 / 2 := by linarith
    -- `y (g (j+1) - g j)` is `t - g j` up to rounding
    have n1 := near_rd hA (show 0 ≤ t - g j by linarith)
    have n2 := near_rd hA D0.le
    have dp := n2.pos h0 hu1 D0
    have key : |y * (g (j + 1) - g j) - (t - g j)| ≤ 4 * u := by
      rcases (show 0 ≤ t - g j by linarith).eq_or_lt with z | z
      · have : y = 0 := by rw [ydef, ← z, rd_zero' hA, zero_div, rd_zero' hA]
        rw [this, ← z]; simp; linarith
      · have l1 : LC (1.02 * u) (A.rd (t - g j)) (t - g j) := LC.rd hA hu' le_rfl z
        have l2 : LC (1.02 * u) (A.rd (g (j + 1) - g j)) (g (j + 1) - g j) := LC.rd hA hu' le_rfl D0
        have l3 := (LC.round hA hu' le_rfl (l1.div l2)).mul (LC.refl D0)
        rw [← ydef, div_mul_cancel₀ _ D0.ne'] at l3
        have l4 := l3.rel (by linarith)
        refine l4.trans ?_
        have := mul_le_mul_of_nonneg_left (show t - g j ≤ 1 / 2 by linarith) (show 0 ≤ u by linarith)
        linarith
    obtain ⟨k1, k2⟩ := abs_le.1 key
    have f1 : y * ((g (j + 1) - g j) - 19 / 39) ≤ 320 * u := by
      have a : (g (j + 1) - g j) - 19 / 39 ≤ 320 * u := by linarith
      have := mul_le_mul_of_nonneg_left a y0
      have := mul_le_mul_of_nonneg_right y1 (show 0 ≤ 320 * u by linarith)
      linarith
    have f2 : -(320 * u) ≤ y * ((g (j + 1) - g j) - 19 / 39) := by
      have a : -(320 * u) ≤ (g (j + 1) - g j) - 19 / 39 := by linarith
      have := mul_le_mul_of_nonneg_left a y0
      have := mul_le_mul_of_nonneg_right y1 (show 0 ≤ 320 * u by linarith)
      linarith
    rw [ht', abs_le]
    constructor <;> linarith
  -- intensities
  set p : ℕ → ℝ := fun i => ttLinear (ttRow i).2 j t' with hp
  set v : ℕ → ℕ → ℝ := fun a b => ((ttIntensitiesR A ks).getD a []).getD b 0 with hv
  have vc : ∀ a < 500, ∀ b < 40, LC (12.3 * u) (v a b) ((((ttRow a).2.getD b 0 : ℕ) : ℝ) / 10 ^ 92 / 1000) := by
    intro a ha b hb
    obtain ⟨r1, r2⟩ := tt_rows _ (ttRow_mem a ha)
    have e1 : v a b = A.rd (A.rd ((((ttRow a).2.getD b 0 : ℕ) : ℝ) / 10 ^ 92) * ks) := by
      simp only [hv]
      unfold ttIntensitiesR
      rw [tt_range, List.map_map, getD_range_map _ 500 a [] ha]
      simp [List.getD, r1, hb]
    have pos : (0 : ℝ) < (((ttRow a).2.getD b 0 : ℕ) : ℝ) / 10 ^ 92 := by
      have : 0 < (ttRow a).2.getD b 0 := by
        rw [getD_of_lt _ _ (by rw [r1]; exact hb)]
        exact r2 _ (List.getElem_mem _)
      have : (0 : ℝ) < (((ttRow a).2.getD b 0 : ℕ) : ℝ) := by exact_mod_cast this
      positivity
    rw [e1, show (((ttRow a).2.getD b 0 : ℕ) : ℝ) / 10 ^ 92 / 1000 =
      (((ttRow a).2.getD b 0 : ℕ) : ℝ) / 10 ^ 92 * (1 / 1000) by ring]
    exact scaled_close hA hu (by norm_num) hks pos
  have pv : ∀ i, p i = (((ttRow i).2.getD j 0 : ℕ) : ℝ) / 10 ^ 92 / 1000 * (1 - y) +
      (((ttRow i).2.getD (j + 1) 0 : ℕ) : ℝ) / 10 ^ 92 / 1000 * y := by
    intro i
    simp only [hp]
    unfold ttLinear
    have : (t' - ttTemp j) / (ttTemp (j + 1) - ttTemp j) = y := by
      rw [hstep, ht', add_sub_cancel_left, mul_div_assoc, div_self (by norm_num), mul_one]
    rw [this]
    ring
  have close : ∀ i < 500, ∀ q : ℝ, Near u 6 q (v i j * (1 - y) + v i (j + 1) * y) → LC (18.5 * u) q (p i) := by
    intro i hi q hq
    have m := LC.mix (vc i hi j (by omega)) (vc i hi (j + 1) j1) y0 y1
    have n := LC.of_near h0 hu' m.1 hq
    rw [pv]
    refine (n.trans m).mono ?_
    push_cast
    linarith
  refine ⟨t', e', e, q, p, by linarith, by linarith, near, ?_, ?_, he', ok, ?_, le, gap, ?_⟩
  · intro h
    have hj0 : j = 0 := by
      by_contra hn
      have := gs 0 j (by omega) (by omega)
      linarith
    have : y = 0 := by
      rw [ydef, h, hj0, g0, sub_self, rd_zero' hA, zero_div, rd_zero' hA]
    rw [ht', this, hj0]
    unfold ttTemp
    norm_num
  · intro h
    have hj0 : j = 38 := by
      by_contra hn
      have := gs (j + 1) 39 (by omega) (by omega)
      linarith
    have : y = 1 := by
      have c0 := d0
      have c1 := d1
      rw [hy, h]
      have k := normDist_next hA h1 (g := (List.range 40).map g) (i := j) (by rw [d0, d1]; exact gl)
      rw [d1, hj0, g39] at k
      rw [hj0]
      exact k
    rw [ht', this, hj0]
    unfold ttTemp
    norm_num
  · rw [C58_linear j (by omega) t' tj tj1, tt_range, List.map_map]
    rfl
  · intro i hi
    have f := findInterval_node e' 500 es i hi
    rw [hq i _ f]
    have nn : ∀ a < 500, ∀ b < 40, 0 ≤ v a b := fun a ha b hb => (vc a ha b hb).1.le
    by_cases hl : i < 499
    · rw [show min (500 - 2) i = i by omega]
      have z : normDistR A ((List.range 500).map e') i (e' i) = 0 := by
        have := normDist_self hA (g := (List.range 500).map e') (i := i)
        rwa [getD_range_map e' 500 i 0 hi] at this
      rw [z]
      exact close i hi _ (bilinear_left hA h1 (nn i hi j (by omega)) (nn i hi (j + 1) j1) y0 y1)
    · have hi' : i = 499 := by omega
      subst hi'
      rw [show min (500 - 2) 499 = 498 by norm_num]
      have z : normDistR A ((List.range 500).map e') 498 (e' 499) = 1 := by
        have a := getD_range_map e' 500 498 0 (by norm_num)
        have b := getD_range_map e' 500 499 0 (by norm_num)
        have := normDist_next hA h1 (g := (List.range 500).map e') (i := 498)
          (by rw [a, b]; exact step 498 (by norm_num))
        rwa [b] at this
      rw [z]
      exact close 499 hi _ (bilinear_right hA h1 (nn 499 hi j (by omega)) (nn 499 hi (j + 1) j1) y0 y1)

end
end
end TNS
