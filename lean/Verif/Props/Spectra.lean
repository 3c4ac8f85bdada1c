import Verif.Props.Energy
/-
C54 (T-T), C56, C58: the tabulated T-T spectrum and the choice of method.
-/

set_option autoImplicit false
set_option linter.unusedSectionVars false

namespace TNS
open Spec

/-- All entries positive, decided on the integers. -/
def allPos : List Nat → Bool
  | [] => true
  | n :: l => match Nat.ble 1 n with
    | true => allPos l
    | false => false

/-- 40 positive intensities in every row. -/
def ttRowsPos : List (Nat × List Nat) → Bool
  | [] => true
  | p :: l => match Nat.beq p.2.length 40 && allPos p.2 with
    | true => ttRowsPos l
    | false => false

/-- Energies increasing, all above `e`. -/
def ttIncrFrom (e : Nat) : List (Nat × List Nat) → Bool
  | [] => true
  | p :: l => match Nat.blt e p.1 with
    | true => ttIncrFrom p.1 l
    | false => false

theorem allPos_spec (l : List Nat) (h : allPos l = true) : ∀ n ∈ l, 0 < n := by
  induction l with
  | nil => simp
  | cons a l ih =>
    unfold allPos at h
    split at h
    · rename_i h1
      have := Nat.le_of_ble_eq_true h1
      intro n hn
      rcases List.mem_cons.1 hn with rfl | hn
      · exact this
      · exact ih h n hn
    · cases h

theorem ttRowsPos_spec (l : List (Nat × List Nat)) (h : ttRowsPos l = true) :
    ∀ p ∈ l, p.2.length = 40 ∧ ∀ n ∈ p.2, 0 < n := by
  induction l with
  | nil => simp
  | cons a l ih =>
    unfold ttRowsPos at h
    split at h
    · rename_i h1
      rw [Bool.and_eq_true] at h1
      intro p hp
      rcases List.mem_cons.1 hp with rfl | hp
      · exact ⟨Nat.eq_of_beq_eq_true h1.1, allPos_spec _ h1.2⟩
      · exact ih h p hp
    · cases h

theorem ttIncr_spec (e : Nat) (l : List (Nat × List Nat)) (h : ttIncrFrom e l = true) :
    (∀ p ∈ l, e < p.1) ∧ l.Pairwise (fun p q => p.1 < q.1) := by
  induction l generalizing e with
  | nil => simp
  | cons a l ih =>
    unfold ttIncrFrom at h
    split at h
    · rename_i h1
      have h1 : e < a.1 := by simpa [Nat.blt_eq] using h1
      obtain ⟨i1, i2⟩ := ih _ h
      refine ⟨?_, List.pairwise_cons.2 ⟨i1, i2⟩⟩
      intro p hp
      rcases List.mem_cons.1 hp with rfl | hp
      · exact h1
      · exact h1.trans (i1 p hp)
    · cases h

theorem tt_pos0 : ttRowsPos Data.ttSpec0 = true := by decide +kernel
theorem tt_pos1 : ttRowsPos Data.ttSpec1 = true := by decide +kernel
theorem tt_pos2 : ttRowsPos Data.ttSpec2 = true := by decide +kernel
theorem tt_pos3 : ttRowsPos Data.ttSpec3 = true := by decide +kernel
theorem tt_pos4 : ttRowsPos Data.ttSpec4 = true := by decide +kernel
theorem tt_pos5 : ttRowsPos Data.ttSpec5 = true := by decide +kernel
theorem tt_pos6 : ttRowsPos Data.ttSpec6 = true := by decide +kernel
theorem tt_pos7 : ttRowsPos Data.ttSpec7 = true := by decide +kernel
theorem tt_pos8 : ttRowsPos Data.ttSpec8 = true := by decide +kernel
theorem tt_pos9 : ttRowsPos Data.ttSpec9 = true := by decide +kernel
theorem tt_pos10 : ttRowsPos Data.ttSpec10 = true := by decide +kernel
theorem tt_pos11 : ttRowsPos Data.ttSpec11 = true := by decide +kernel
theorem tt_pos12 : ttRowsPos Data.ttSpec12 = true := by decide +kernel
theorem tt_pos13 : ttRowsPos Data.ttSpec13 = true := by decide +kernel
theorem tt_pos14 : ttRowsPos Data.ttSpec14 = true := by decide +kernel
theorem tt_pos15 : ttRowsPos Data.ttSpec15 = true := by decide +kernel
theorem tt_pos16 : ttRowsPos Data.ttSpec16 = true := by decide +kernel
theorem tt_pos17 : ttRowsPos Data.ttSpec17 = true := by decide +kernel
theorem tt_pos18 : ttRowsPos Data.ttSpec18 = true := by decide +kernel
theorem tt_pos19 : ttRowsPos Data.ttSpec19 = true := by decide +kernel

set_option maxRecDepth 100000 in
theorem tt_incr : ttIncrFrom 0 Data.ttSpectra = true := by decide +kernel

set_option maxRecDepth 100000 in
theorem tt_length : Data.ttSpectra.length = 500 := by decide +kernel

theorem tt_sorted : Data.ttSpectra.Pairwise (fun p q => p.1 < q.1) := (ttIncr_spec 0 _ tt_incr).2

/-- Every row of the T-T data has 40 positive intensities. -/
theorem tt_rows : ∀ p ∈ Data.ttSpectra, p.2.length = 40 ∧ ∀ n ∈ p.2, 0 < n := by
  unfold Data.ttSpectra
  simp only [List.mem_append]
  rintro p (((((((((((((((((((h | h) | h) | h) | h) | h) | h) | h) | h) | h) | h) | h) | h) | h) | h) | h) | h) | h) | h) | h)
  · exact ttRowsPos_spec _ tt_pos0 p h
  · exact ttRowsPos_spec _ tt_pos1 p h
  · exact ttRowsPos_spec _ tt_pos2 p h
  · exact ttRowsPos_spec _ tt_pos3 p h
  · exact ttRowsPos_spec _ tt_pos4 p h
  · exact ttRowsPos_spec _ tt_pos5 p h
  · exact ttRowsPos_spec _ tt_pos6 p h
  · exact ttRowsPos_spec _ tt_pos7 p h
  · exact ttRowsPos_spec _ tt_pos8 p h
  · exact ttRowsPos_spec _ tt_pos9 p h
  · exact ttRowsPos_spec _ tt_pos10 p h
  · exact ttRowsPos_spec _ tt_pos11 p h
  · exact ttRowsPos_spec _ tt_pos12 p h
  · exact ttRowsPos_spec _ tt_pos13 p h
  · exact ttRowsPos_spec _ tt_pos14 p h
  · exact ttRowsPos_spec _ tt_pos15 p h
  · exact ttRowsPos_spec _ tt_pos16 p h
  · exact ttRowsPos_spec _ tt_pos17 p h
  · exact ttRowsPos_spec _ tt_pos18 p h
  · exact ttRowsPos_spec _ tt_pos19 p h

/-- Linear interpolation between entries `j` and `j+1` of a sorted table. -/
theorem npInterp_index (t : List (ℝ × ℝ)) (hs : SortedTable t) (j : ℕ) (hj : j + 1 < t.length)
    (x : ℝ) (h1 : t[j].1 ≤ x) (h2 : x ≤ t[j + 1].1) :
    npInterp t x = t[j].2 + (t[j + 1].2 - t[j].2) * ((x - t[j].1) / (t[j + 1].1 - t[j].1)) := by
  have e : t = t.take j ++ t[j] :: t[j + 1] :: t.drop (j + 2) := by
    rw [List.getElem_cons_drop, List.getElem_cons_drop, List.take_append_drop]
  have h := npInterp_seg (t.take j) t[j] t[j + 1] (t.drop (j + 2)) (by rw [← e]; exact hs) x h1 h2
  rw [← e] at h
  exact h

theorem getD_of_lt (l : List Nat) (k : ℕ) (h : k < l.length) : l.getD k 0 = l[k] := by
  simp [List.getD, h]

/-- Temperature number `j` of the 40 tabulated ones (1, 1 + 19/39, ..., 20 keV). -/
noncomputable def ttTemp (j : ℕ) : ℝ := 1 + (j : ℝ) * (19 / 39)

/-- The T-T intensity of a data row at a temperature between the tabulated ones: straight line. -/
noncomputable def ttLinear (row : List Nat) (j : ℕ) (t : ℝ) : ℝ :=
  let v : ℕ → ℝ := fun k => ((row.getD k 0 : ℕ) : ℝ) / 10 ^ 92 / 1000
  v j + (v (j + 1) - v j) * ((t - ttTemp j) / (ttTemp (j + 1) - ttTemp j))

theorem ttTable (row : List Nat) (hr : row.length = 40) :
    (List.zip ttTemperatures (row.map (fun n : ℕ => (n : ℝ) / 10 ^ 92 / 1000))).length = 40 ∧
    SortedTable (List.zip ttTemperatures (row.map (fun n : ℕ => (n : ℝ) / 10 ^ 92 / 1000))) ∧
    ∀ j (h : j < (List.zip ttTemperatures
      (row.map (fun n : ℕ => (n : ℝ) / 10 ^ 92 / 1000))).length),
      (List.zip ttTemperatures (row.map (fun n : ℕ => (n : ℝ) / 10 ^ 92 / 1000)))[j] =
        (ttTemp j, ((row.getD j 0 : ℕ) : ℝ) / 10 ^ 92 / 1000) := by
  have hl : ttTemperatures.length = 40 := linspace_length _ _ _
  have hlen : (List.zip ttTemperatures
      (row.map (fun n : ℕ => (n : ℝ) / 10 ^ 92 / 1000))).length = 40 := by
    rw [List.length_zip, hl, List.length_map, hr]; rfl
  refine ⟨hlen, ?_, ?_⟩
  · have hs : ttTemperatures.Pairwise (· < ·) := linspace_sorted _ _ _ (by norm_num) (by norm_num)
    have : ttTemperatures = (List.zip ttTemperatures
        (row.map (fun n : ℕ => (n : ℝ) / 10 ^ 92 / 1000))).map Prod.fst := by
      rw [List.map_fst_zip]
      rw [hl, List.length_map, hr]
    rw [this, List.pairwise_map] at hs
    exact hs
  · intro j h
    have hj : j < 40 := by rw [hlen] at h; exact h
    rw [List.getElem_zip]
    have e1 : ttTemperatures[j]'(by rw [hl]; exact hj) = ttTemp j := by
      unfold ttTemperatures linspace ttTemp
      rw [List.getElem_map, List.getElem_range]
      norm_num
    rw [e1, List.getElem_map, getD_of_lt _ _ (by rw [hr]; exact hj)]

/-- **C58**, inside the table: at a temperature between two neighbouring tabulated ones every
intensity is on the straight line between theirs; the energies are those of the data file. -/
theorem C58_linear (j : ℕ) (hj : j < 39) (t : ℝ) (h1 : ttTemp j ≤ t) (h2 : t ≤ ttTemp (j + 1)) :
    (ttCall t).1 = Data.ttSpectra.map
      (fun r => ((r.1 : ℝ) / 10 ^ 14 * 1000, ttLinear r.2 j t)) := by
  have hrows := tt_rows
  have ht1 : 1 ≤ t := by
    have : (0 : ℝ) ≤ (j : ℝ) * (19 / 39) := by positivity
    unfold ttTemp at h1; linarith
  have ht2 : t ≤ 20 := by
    have : ((j + 1 : ℕ) : ℝ) ≤ 39 := by exact_mod_cast hj
    unfold ttTemp at h2
    have : ((j + 1 : ℕ) : ℝ) * (19 / 39) ≤ 39 * (19 / 39) := by gcongr
    linarith
  have hc : clip 1 20 t = t := by unfold clip; rw [max_eq_left ht1, min_eq_left ht2]
  have e : (ttCall t).1 = List.zip ttEnergy (ttInterpolate t) := by
    unfold ttCall; split_ifs <;> simp [hc]
  rw [e]
  unfold ttInterpolate ttIntensities ttEnergy
  rw [List.map_map, List.zip_map', List.map_inj_left]
  intro r hr
  simp only [Function.comp_apply, Prod.mk.injEq, true_and]
  obtain ⟨a1, a2, a3⟩ := ttTable r.2 (hrows r hr).1
  rw [npInterp_index _ a2 j (by rw [a1]; omega) t (by rw [a3]; exact h1) (by rw [a3]; exact h2),
    a3, a3]
  rfl

/-- **C58**: the tabulated temperatures cover `[1, 20]`. -/
theorem C58_cover (t : ℝ) (h1 : 1 ≤ t) (h2 : t ≤ 20) :
    ∃ j, j < 39 ∧ ttTemp j ≤ t ∧ t ≤ ttTemp (j + 1) := by
  by_cases h : t = 20
  · exact ⟨38, by norm_num, by rw [h]; unfold ttTemp; norm_num,
      by rw [h]; unfold ttTemp; norm_num⟩
  · have hlt : t < 20 := lt_of_le_of_ne h2 h
    have h0 : 0 ≤ (t - 1) * (39 / 19) := mul_nonneg (by linarith) (by norm_num)
    refine ⟨⌊(t - 1) * (39 / 19)⌋₊, ?_, ?_, ?_⟩
    · rw [Nat.floor_lt h0]; push_cast; linarith
    · have := Nat.floor_le h0
      unfold ttTemp; linarith
    · have := (Nat.lt_floor_add_one ((t - 1) * (39 / 19))).le
      unfold ttTemp; push_cast; linarith

/-- **C58**, outside the table: the spectrum is that of the nearest bound. -/
theorem C58_clip (t : ℝ) :
    (t ≤ 1 → (ttCall t).1 = (ttCall 1).1) ∧ (20 ≤ t → (ttCall t).1 = (ttCall 20).1) := by
  constructor
  · intro h
    have a : ¬ (1 < t ∧ t < 20) := fun h' => absurd h'.1 (not_lt.2 h)
    unfold ttCall
    rw [if_neg a, if_neg (by norm_num)]
    simp only [clip, max_eq_right h, max_self]
  · intro h
    have a : ¬ (1 < t ∧ t < 20) := fun h' => absurd h'.2 (not_lt.2 h)
    unfold ttCall
    rw [if_neg a, if_neg (by norm_num)]
    simp only [clip]
    rw [max_eq_left (by linarith), min_eq_right h]
    norm_num

/-- **C58**: the energy grid is that of the data file at every temperature, and increasing. -/
theorem C58_energy_grid (t : ℝ) :
    (ttCall t).1.map Prod.fst = Data.ttSpectra.map (fun r => (r.1 : ℝ) / 10 ^ 14 * 1000) ∧
    (ttCall t).1.Pairwise (fun p q => p.1 < q.1) ∧ (ttCall t).1.length = 500 := by
  have e : (ttCall t).1.map Prod.fst =
      Data.ttSpectra.map (fun r => (r.1 : ℝ) / 10 ^ 14 * 1000) := by
    have hz : ∀ x, (List.zip ttEnergy (ttInterpolate x)).map Prod.fst = ttEnergy := by
      intro x
      rw [List.map_fst_zip]
      rw [ttEnergy, ttInterpolate, ttIntensities, List.length_map, List.length_map,
        List.length_map]
    have : (ttCall t).1.map Prod.fst = ttEnergy := by
      unfold ttCall
      split_ifs <;> exact hz _
    rw [this, ttEnergy]
  refine ⟨e, ?_, ?_⟩
  · have : ((ttCall t).1.map Prod.fst).Pairwise (· < ·) := by
      rw [e, List.pairwise_map]
      refine tt_sorted.imp ?_
      intro p q h
      have : (p.1 : ℝ) < q.1 := by exact_mod_cast h
      gcongr
    rwa [List.pairwise_map] at this
  · have := congrArg List.length e
    simpa [tt_length] using this

theorem convex_pos (u v x : ℝ) (hu : 0 < u) (hv : 0 < v) (h0 : 0 ≤ x) (h1 : x ≤ 1) :
    0 < u + (v - u) * x :=
  lt_of_lt_of_le (lt_min hu hv) (seg_between u v x (min u v) (max u v) h0 h1 (min_le_left _ _)
    (min_le_right _ _) (le_max_left _ _) (le_max_right _ _)).1

/-- **C58**: all intensities are positive at every real temperature. -/
theorem C58_positive (t : ℝ) : ∀ p ∈ (ttCall t).1, 0 < p.2 := by
  have key : ∀ t, 1 ≤ t → t ≤ 20 → ∀ p ∈ (ttCall t).1, 0 < p.2 := by
    intro t h1 h2 p hp
    obtain ⟨j, hj, a, b⟩ := C58_cover t h1 h2
    rw [C58_linear j hj t a b] at hp
    obtain ⟨r, hr, rfl⟩ := List.mem_map.1 hp
    obtain ⟨hl, hpos⟩ := tt_rows r hr
    have hd : 0 < ttTemp (j + 1) - ttTemp j := by unfold ttTemp; push_cast; linarith
    have x0 : 0 ≤ (t - ttTemp j) / (ttTemp (j + 1) - ttTemp j) := div_nonneg (by linarith) hd.le
    have x1 : (t - ttTemp j) / (ttTemp (j + 1) - ttTemp j) ≤ 1 := by
      rw [div_le_one hd]; linarith
    have hv : ∀ k, k < 40 → (0 : ℝ) < ((r.2.getD k 0 : ℕ) : ℝ) / 10 ^ 92 / 1000 := by
      intro k hk
      rw [getD_of_lt _ _ (by rw [hl]; exact hk)]
      have := hpos _ (List.getElem_mem (l := r.2) (n := k) (by rw [hl]; exact hk))
      have : (0 : ℝ) < ((r.2[k]'(by rw [hl]; exact hk) : ℕ) : ℝ) := by exact_mod_cast this
      positivity
    simp only [ttLinear]
    have v0 := hv j (by omega)
    have v1 := hv (j + 1) (by omega)
    exact convex_pos _ _ _ v0 v1 x0 x1
  by_cases h1 : t ≤ 1
  · rw [(C58_clip t).1 h1]; exact key 1 le_rfl (by norm_num)
  · by_cases h2 : 20 ≤ t
    · rw [(C58_clip t).2 h2]; exact key 20 (by norm_num) le_rfl
    · exact key t (not_le.1 h1).le (not_le.1 h2).le

/-- **C58**: a warning is logged exactly when the temperature is not strictly inside the table (so
also, harmlessly, at the bounds themselves). -/
theorem C58_warning (t : ℝ) : (ttCall t).2 = [] ↔ 1 < t ∧ t < 20 := by
  unfold ttCall; split_ifs with h <;> simp [h]

/-- **C54**, T-T: at every real temperature the T-T data spectrum succeeds; it is the tabulated
density multiplied by the positive number that makes its area 1 (nothing is trimmed). -/
theorem C54_TT (t : ℝ) : ∃ c, 0 < c ∧
    energySpectrum t .TT .DATA =
      .ok (some ((ttCall t).1.map (fun p => (p.1, c * p.2))), (ttCall t).2) ∧
    area ((ttCall t).1.map (fun p => (p.1, c * p.2))) = 1 := by
  obtain ⟨-, hs, hl⟩ := C58_energy_grid t
  obtain ⟨c, hc, e, ha⟩ := prepare_pos _ hs (C58_positive t) (by rw [hl]; norm_num)
  refine ⟨c, hc, ?_, ha⟩
  simp only [energySpectrum, dataSpectrum, e, Bind.bind, Except.bind]

/-! ## C56 -/

/-- **C56**, T-T: every method gives the data spectrum (the Ballabio methods with a warning). -/
theorem C56_TT (t : ℝ) (method : SpectrumMethod) :
    ∃ s w, energySpectrum t .TT .DATA = .ok (some s, w) ∧
      energySpectrum t .TT method = .ok (some s,
        if method = .BALLABIO_GAUSSIAN ∨ method = .BALLABIO_M_GAUSSIAN then .noBallabio .TT :: w
        else w) := by
  obtain ⟨c, -, e, -⟩ := C54_TT t
  refine ⟨_, _, e, ?_⟩
  simp only [energySpectrum, Bind.bind, Except.bind] at e
  cases hd : dataSpectrum .TT t with
  | error x => rw [hd] at e; cases e
  | ok s =>
    rw [hd] at e
    simp only [Except.ok.injEq, Prod.mk.injEq, Option.some.injEq] at e
    cases method <;> simp [energySpectrum, hd, Reaction.ballabio, Bind.bind, Except.bind, e]

/-- **C56**, D-T and D-D: `AUTO` is the modified Gaussian; `DATA` raises `NotImplementedError`. -/
theorem C56_ballabio (r : Neutronic) (hr : r ≠ .T_T) (t : ℝ) :
    energySpectrum t (.n r) .AUTO = energySpectrum t (.n r) .BALLABIO_M_GAUSSIAN ∧
    energySpectrum t (.n r) .DATA = .error .notImplementedError := by
  cases r with
  | D_T => exact ⟨rfl, rfl⟩
  | D_D => exact ⟨rfl, rfl⟩
  | T_T => exact absurd rfl hr

/-- **C56**: `AUTO` succeeds for every neutronic reaction for temperatures in the fit range, with a
proper spectrum: increasing energies, non-negative values, unit area. -/
theorem C56_auto (r : Neutronic) (t : ℝ) (ht : 0 < t) (h40 : t ≤ 40) :
    ∃ s w, energySpectrum t (.n r) .AUTO = .ok (some s, w) ∧ IsSpectrum s := by
  by_cases hr : r = .T_T
  · subst hr
    obtain ⟨c, hc, e, ha⟩ := C54_TT t
    refine ⟨_, _, e, ⟨?_, ?_, ha⟩⟩
    · rw [List.pairwise_map]; exact (C58_energy_grid t).2.1
    · intro p hp
      obtain ⟨q, hq, rfl⟩ := List.mem_map.1 hp
      exact (mul_pos hc (C58_positive t q hq)).le
  · obtain ⟨-, -, c, hc, e, ha⟩ := C57_spectra r hr t ht h40
    have hσ : 0 < specSigma r t := by
      obtain ⟨⟨_, _, _, a4, _⟩, _, _, _, b4, _⟩ := C57_moments t ht h40
      cases r with
      | D_T => exact a4
      | D_D => exact b4
      | T_T => exact absurd rfl hr
    refine ⟨_, _, (C56_ballabio r hr t).1.trans e, ⟨grid_sorted _ _ hσ _, ?_, ha⟩⟩
    intro p hp
    obtain ⟨q, hq, rfl⟩ := List.mem_map.1 hp
    exact (mul_pos hc (Real.exp_pos _)).le

/-- **C56**: for an aneutronic reaction no spectrum is ever returned: `AUTO` returns `None`, every
other method raises `NotImplementedError`. -/
theorem C56_aneutronic (r : Aneutronic) (t : ℝ) (method : SpectrumMethod) :
    energySpectrum t (.a r) method =
      if method = .AUTO then .ok (none, []) else .error .notImplementedError := by
  cases r <;> cases method <;> rfl

end TNS
