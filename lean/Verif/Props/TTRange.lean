import Verif.Props.Spectra
import Verif.Spec.SdefRead
/-
The tabulated T-T spectrum is within the range of doubles at every temperature.
-/

set_option autoImplicit false

namespace TNS
open Spec

/-- All entries below `10^93`. -/
def allBelow : List Nat → Bool
  | [] => true
  | n :: l => match Nat.ble n (10 ^ 93) with
    | true => allBelow l
    | false => false

/-- Energies and intensities bounded. -/
def ttRowsBelow : List (Nat × List Nat) → Bool
  | [] => true
  | p :: l => match Nat.ble p.1 (10 ^ 16) && allBelow p.2 with
    | true => ttRowsBelow l
    | false => false

theorem allBelow_spec (l : List Nat) (h : allBelow l = true) : ∀ n ∈ l, n ≤ 10 ^ 93 := by
  induction l with
  | nil => simp
  | cons a l ih =>
    unfold allBelow at h
    split at h
    · rename_i h1
      have := Nat.le_of_ble_eq_true h1
      intro n hn
      rcases List.mem_cons.1 hn with rfl | hn
      · exact this
      · exact ih h n hn
    · cases h

theorem ttRowsBelow_spec (l : List (Nat × List Nat)) (h : ttRowsBelow l = true) :
    ∀ p ∈ l, p.1 ≤ 10 ^ 16 ∧ ∀ n ∈ p.2, n ≤ 10 ^ 93 := by
  induction l with
  | nil => simp
  | cons a l ih =>
    unfold ttRowsBelow at h
    split at h
    · rename_i h1
      rw [Bool.and_eq_true] at h1
      intro p hp
      rcases List.mem_cons.1 hp with rfl | hp
      · exact ⟨Nat.le_of_ble_eq_true h1.1, allBelow_spec _ h1.2⟩
      · exact ih h p hp
    · cases h

theorem tt_low0 : ttRowsBelow Data.ttSpec0 = true := by decide +kernel
theorem tt_low1 : ttRowsBelow Data.ttSpec1 = true := by decide +kernel
theorem tt_low2 : ttRowsBelow Data.ttSpec2 = true := by decide +kernel
theorem tt_low3 : ttRowsBelow Data.ttSpec3 = true := by decide +kernel
theorem tt_low4 : ttRowsBelow Data.ttSpec4 = true := by decide +kernel
theorem tt_low5 : ttRowsBelow Data.ttSpec5 = true := by decide +kernel
theorem tt_low6 : ttRowsBelow Data.ttSpec6 = true := by decide +kernel
theorem tt_low7 : ttRowsBelow Data.ttSpec7 = true := by decide +kernel
theorem tt_low8 : ttRowsBelow Data.ttSpec8 = true := by decide +kernel
theorem tt_low9 : ttRowsBelow Data.ttSpec9 = true := by decide +kernel
theorem tt_low10 : ttRowsBelow Data.ttSpec10 = true := by decide +kernel
theorem tt_low11 : ttRowsBelow Data.ttSpec11 = true := by decide +kernel
theorem tt_low12 : ttRowsBelow Data.ttSpec12 = true := by decide +kernel
theorem tt_low13 : ttRowsBelow Data.ttSpec13 = true := by decide +kernel
theorem tt_low14 : ttRowsBelow Data.ttSpec14 = true := by decide +kernel
theorem tt_low15 : ttRowsBelow Data.ttSpec15 = true := by decide +kernel
theorem tt_low16 : ttRowsBelow Data.ttSpec16 = true := by decide +kernel
theorem tt_low17 : ttRowsBelow Data.ttSpec17 = true := by decide +kernel
theorem tt_low18 : ttRowsBelow Data.ttSpec18 = true := by decide +kernel
theorem tt_low19 : ttRowsBelow Data.ttSpec19 = true := by decide +kernel

theorem tt_below : ∀ p ∈ Data.ttSpectra, p.1 ≤ 10 ^ 16 ∧ ∀ n ∈ p.2, n ≤ 10 ^ 93 := by
  unfold Data.ttSpectra
  simp only [List.mem_append]
  rintro p (((((((((((((((((((h | h) | h) | h) | h) | h) | h) | h) | h) | h) | h) | h) | h) | h) | h) | h) | h) | h) | h) | h)
  · exact ttRowsBelow_spec _ tt_low0 p h
  · exact ttRowsBelow_spec _ tt_low1 p h
  · exact ttRowsBelow_spec _ tt_low2 p h
  · exact ttRowsBelow_spec _ tt_low3 p h
  · exact ttRowsBelow_spec _ tt_low4 p h
  · exact ttRowsBelow_spec _ tt_low5 p h
  · exact ttRowsBelow_spec _ tt_low6 p h
  · exact ttRowsBelow_spec _ tt_low7 p h
  · exact ttRowsBelow_spec _ tt_low8 p h
  · exact ttRowsBelow_spec _ tt_low9 p h
  · exact ttRowsBelow_spec _ tt_low10 p h
  · exact ttRowsBelow_spec _ tt_low11 p h
  · exact ttRowsBelow_spec _ tt_low12 p h
  · exact ttRowsBelow_spec _ tt_low13 p h
  · exact ttRowsBelow_spec _ tt_low14 p h
  · exact ttRowsBelow_spec _ tt_low15 p h
  · exact ttRowsBelow_spec _ tt_low16 p h
  · exact ttRowsBelow_spec _ tt_low17 p h
  · exact ttRowsBelow_spec _ tt_low18 p h
  · exact ttRowsBelow_spec _ tt_low19 p h

theorem tt_value_range (t : ℝ) : ∀ p ∈ (ttCall t).1, 1 / 10 ^ 95 ≤ p.2 ∧ p.2 ≤ 1 / 100 := by
  have key : ∀ t, 1 ≤ t → t ≤ 20 → ∀ p ∈ (ttCall t).1, 1 / 10 ^ 95 ≤ p.2 ∧ p.2 ≤ 1 / 100 := by
    intro t h1 h2 p hp
    obtain ⟨j, hj, a, b⟩ := C58_cover t h1 h2
    rw [C58_linear j hj t a b] at hp
    obtain ⟨r, hr, rfl⟩ := List.mem_map.1 hp
    obtain ⟨hl, hpos⟩ := tt_rows r hr
    have hbel := (tt_below r hr).2
    have hd : 0 < ttTemp (j + 1) - ttTemp j := by unfold ttTemp; push_cast; linarith
    have x0 : 0 ≤ (t - ttTemp j) / (ttTemp (j + 1) - ttTemp j) := div_nonneg (by linarith) hd.le
    have x1 : (t - ttTemp j) / (ttTemp (j + 1) - ttTemp j) ≤ 1 := by
      rw [div_le_one hd]; linarith
    have hv : ∀ k, k < 40 → (1 : ℝ) / 10 ^ 95 ≤ ((r.2.getD k 0 : ℕ) : ℝ) / 10 ^ 92 / 1000 ∧
        ((r.2.getD k 0 : ℕ) : ℝ) / 10 ^ 92 / 1000 ≤ 1 / 100 := by
      intro k hk
      rw [getD_of_lt _ _ (by rw [hl]; exact hk)]
      have m := List.getElem_mem (l := r.2) (n := k) (by rw [hl]; exact hk)
      have g1 : (1 : ℝ) ≤ ((r.2[k]'(by rw [hl]; exact hk) : ℕ) : ℝ) := by exact_mod_cast hpos _ m
      have g2 : ((r.2[k]'(by rw [hl]; exact hk) : ℕ) : ℝ) ≤ 10 ^ 93 := by exact_mod_cast hbel _ m
      constructor
      · rw [div_div, div_le_div_iff₀ (by positivity) (by positivity)]
        nlinarith
      · rw [div_div, div_le_div_iff₀ (by positivity) (by positivity)]
        nlinarith
    simp only [ttLinear]
    exact seg_between _ _ _ _ _ x0 x1 (hv j (by omega)).1 (hv (j + 1) (by omega)).1
      (hv j (by omega)).2 (hv (j + 1) (by omega)).2
  by_cases h1 : t ≤ 1
  · rw [(C58_clip t).1 h1]; exact key 1 le_rfl (by norm_num)
  · by_cases h2 : 20 ≤ t
    · rw [(C58_clip t).2 h2]; exact key 20 (by norm_num) le_rfl
    · exact key t (not_le.1 h1).le (not_le.1 h2).le

theorem tt_energy_range (t : ℝ) : ∀ p ∈ (ttCall t).1, 1 / 10 ^ 11 ≤ p.1 ∧ p.1 ≤ 10 ^ 5 := by
  intro p hp
  have h := (C58_energy_grid t).1
  have hm : p.1 ∈ (ttCall t).1.map Prod.fst := List.mem_map.2 ⟨p, hp, rfl⟩
  rw [h] at hm
  obtain ⟨r, hr, e⟩ := List.mem_map.1 hm
  have h0 : 0 < r.1 := (ttIncr_spec 0 _ tt_incr).1 r hr
  have h1 := (tt_below r hr).1
  have g1 : (1 : ℝ) ≤ (r.1 : ℝ) := by exact_mod_cast h0
  have g2 : (r.1 : ℝ) ≤ 10 ^ 16 := by exact_mod_cast h1
  rw [← e]
  constructor
  · rw [div_mul_eq_mul_div, div_le_div_iff₀ (by positivity) (by positivity)]; nlinarith
  · rw [div_mul_eq_mul_div, div_le_iff₀ (by positivity)]; nlinarith

/-- The area of a table with increasing abscissae and bounded ordinates. -/
theorem area_bounds (l : List (ℝ × ℝ)) (p : ℝ × ℝ) (m M : ℝ) (hm : 0 ≤ m)
    (hs : (p :: l).Pairwise (fun p q => p.1 < q.1)) (hb : ∀ q ∈ p :: l, m ≤ q.2 ∧ q.2 ≤ M) :
    m * (((p :: l).getLast (by simp)).1 - p.1) ≤ area (p :: l) ∧
      area (p :: l) ≤ M * (((p :: l).getLast (by simp)).1 - p.1) := by
  induction l generalizing p with
  | nil => simp [area]
  | cons q l ih =>
    obtain ⟨i1, i2⟩ := ih q hs.of_cons (fun x hx => hb x (List.mem_cons_of_mem _ hx))
    have e : area (p :: q :: l) = (p.2 + q.2) / 2 * (q.1 - p.1) + area (q :: l) := by simp [area]
    have hpq : p.1 < q.1 := (List.pairwise_cons.1 hs).1 q (by simp)
    have b1 := hb p (by simp)
    have b2 := hb q (by simp)
    rw [e, List.getLast_cons (by simp)]
    constructor <;> nlinarith

theorem area_scale (c : ℝ) (l : List (ℝ × ℝ)) : area (l.map (fun p => (p.1, c * p.2))) = c * area l := by
  induction l with
  | nil => simp [area]
  | cons p l ih =>
    rcases l with _ | ⟨q, l⟩
    · simp [area]
    · have e : ∀ (p q : ℝ × ℝ) (l : List (ℝ × ℝ)),
        area (p :: q :: l) = (p.2 + q.2) / 2 * (q.1 - p.1) + area (q :: l) := by simp [area]
      rw [List.map_cons, List.map_cons, e, e, ← List.map_cons (f := fun p : ℝ × ℝ => (p.1, c * p.2)), ih]
      ring

theorem inRange_of (x : ℝ) (h1 : 1 / 10 ^ 120 ≤ x) (h2 : x ≤ 10 ^ 120) : InRange x := by
  have h0 : 0 < x := lt_of_lt_of_le (by positivity) h1
  right
  rw [abs_of_pos h0]
  constructor
  · refine le_trans ?_ h1
    rw [one_div, ← zpow_natCast, ← zpow_neg]
    exact zpow_le_zpow_right₀ (by norm_num) (by norm_num)
  · refine le_trans h2 ?_
    rw [← zpow_natCast]
    exact zpow_le_zpow_right₀ (by norm_num) (by norm_num)

/-- The spectrum that is written for T-T exists at every temperature and can be printed. -/
theorem tt_bounds120 (t : ℝ) : ∃ pairs log, energySpectrum t (.n .T_T) .DATA = .ok (some pairs, log) ∧
    IsSpectrum pairs ∧ ∀ q ∈ pairs, (1 / 10 ^ 120 ≤ q.1 / 1000 ∧ q.1 / 1000 ≤ 10 ^ 120) ∧
      1 / 10 ^ 120 ≤ q.2 ∧ q.2 ≤ 10 ^ 120 := by
  obtain ⟨c, hc, e, ha⟩ := C54_TT t
  obtain ⟨-, hs, hl⟩ := C58_energy_grid t
  have hv := tt_value_range t
  have he := tt_energy_range t
  rw [area_scale] at ha
  have hint : ∀ p ∈ (ttCall t).1, ∃ n : ℕ, p.1 = (n : ℝ) / 10 ^ 14 * 1000 := by
    intro p hp
    have hm : p.1 ∈ (ttCall t).1.map Prod.fst := List.mem_map.2 ⟨p, hp, rfl⟩
    rw [(C58_energy_grid t).1] at hm
    obtain ⟨r, -, e⟩ := List.mem_map.1 hm
    exact ⟨r.1, e.symm⟩
  have hgap : ∃ g : ℝ, 1 / 10 ^ 11 ≤ g ∧ g ≤ 10 ^ 5 ∧ 1 / 10 ^ 95 * g ≤ area (ttCall t).1 ∧
      area (ttCall t).1 ≤ 1 / 100 * g := by
    generalize (ttCall t).1 = l at hs hl hv he hint
    rcases l with _ | ⟨a, _ | ⟨b, l⟩⟩
    · simp at hl
    · simp at hl
    · obtain ⟨h1, h2⟩ := area_bounds (b :: l) a (1 / 10 ^ 95) (1 / 100) (by positivity) hs hv
      refine ⟨_, ?_, ?_, h1, h2⟩
      · obtain ⟨m, em⟩ := hint a (by simp)
        obtain ⟨n, en⟩ := hint b (by simp)
        have hab : a.1 < b.1 := (List.pairwise_cons.1 hs).1 b (by simp)
        have hmn : m < n := by
          rw [em, en] at hab
          have : (m : ℝ) < n := by
            by_contra hc
            have : (n : ℝ) ≤ m := not_lt.1 hc
            have : (n : ℝ) / 10 ^ 14 * 1000 ≤ m / 10 ^ 14 * 1000 := by gcongr
            linarith
          exact_mod_cast this
        have hmn' : (m : ℝ) + 1 ≤ n := by exact_mod_cast hmn
        have hlast : b.1 ≤ ((a :: b :: l).getLast (by simp)).1 := by
          rw [List.getLast_cons (by simp)]
          rcases l with _ | ⟨d, l⟩
          · simp
          · rw [List.getLast_cons (by simp)]
            exact ((List.pairwise_cons.1 (hs.of_cons)).1 _ (List.getLast_mem _)).le
        have : (1 : ℝ) / 10 ^ 11 ≤ b.1 - a.1 := by
          rw [em, en]
          have : (n : ℝ) / 10 ^ 14 * 1000 - m / 10 ^ 14 * 1000 = (n - m) / 10 ^ 11 := by ring
          rw [this]
          gcongr
          linarith
        linarith
      · have h3 := (he _ (List.getLast_mem (l := a :: b :: l) (by simp))).2
        have h4 := (he a (by simp)).1
        have : (0 : ℝ) < 1 / 10 ^ 11 := by positivity
        linarith
  obtain ⟨g, g1, g2, a1, a2⟩ := hgap
  have hA1 : 1 / 10 ^ 106 ≤ area (ttCall t).1 := by
    refine le_trans ?_ a1
    have : (1 : ℝ) / 10 ^ 95 * (1 / 10 ^ 11) ≤ 1 / 10 ^ 95 * g := by gcongr
    refine le_trans (le_of_eq ?_) this
    rw [div_mul_div_comm, ← pow_add]; norm_num
  have hA2 : area (ttCall t).1 ≤ 10 ^ 3 := by linarith
  have hc1 : 1 / 10 ^ 3 ≤ c := by
    rw [div_le_iff₀ (by positivity), ← ha]
    gcongr
  have hc2 : c ≤ 10 ^ 106 := by
    have h1 : c * (1 / 10 ^ 106) ≤ 1 := le_trans (mul_le_mul_of_nonneg_left hA1 hc.le) ha.le
    rwa [mul_one_div, div_le_one (by positivity)] at h1
  refine ⟨_, _, e, ⟨?_, ?_, ?_⟩, ?_⟩
  · rw [List.pairwise_map]; exact hs
  · intro p hp
    obtain ⟨q, hq, rfl⟩ := List.mem_map.1 hp
    have := (hv q hq).1
    have : (0 : ℝ) ≤ q.2 := le_trans (by positivity) this
    exact mul_nonneg hc.le this
  · rw [area_scale]; exact ha
  · intro p hp
    obtain ⟨q, hq, rfl⟩ := List.mem_map.1 hp
    obtain ⟨v1, v2⟩ := hv q hq
    obtain ⟨e1, e2⟩ := he q hq
    refine ⟨⟨?_, ?_⟩, ?_, ?_⟩
    · show 1 / 10 ^ 120 ≤ q.1 / 1000
      rw [le_div_iff₀ (by norm_num)]
      refine le_trans ?_ e1
      norm_num
    · show q.1 / 1000 ≤ 10 ^ 120
      rw [div_le_iff₀ (by norm_num)]
      refine le_trans e2 ?_
      norm_num
    · show 1 / 10 ^ 120 ≤ c * q.2
      calc (1 : ℝ) / 10 ^ 120 ≤ 1 / 10 ^ 3 * (1 / 10 ^ 95) := by norm_num
        _ ≤ c * q.2 := by gcongr
    · show c * q.2 ≤ 10 ^ 120
      have : (0 : ℝ) ≤ q.2 := le_trans (by positivity) v1
      calc c * q.2 ≤ 10 ^ 106 * (1 / 100) := by gcongr
        _ ≤ 10 ^ 120 := by norm_num

theorem tt_printable (t : ℝ) : ∃ pairs log, energySpectrum t (.n .T_T) .DATA = .ok (some pairs, log) ∧
    IsSpectrum pairs ∧ ∀ q ∈ pairs, InRange (q.1 / 1000) ∧ InRange q.2 := by
  obtain ⟨pairs, log, e, hs, h⟩ := tt_bounds120 t
  exact ⟨pairs, log, e, hs, fun q hq => ⟨inRange_of _ (h q hq).1.1 (h q hq).1.2, inRange_of _ (h q hq).2.1 (h q hq).2.2⟩⟩

end TNS
