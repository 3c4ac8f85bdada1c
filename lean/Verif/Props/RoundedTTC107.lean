import Verif.Spec.RoundedTT
import Verif.Props.RoundedTT
import Verif.Props.RoundedSpectraC99
import Verif.Props.RoundedProfileOrder
import Verif.Props.TTMean
/-
C107: the T-T neutron spectrum in floating point.
-/

set_option autoImplicit false

namespace TNS
open Spec
noncomputable section

section
variable {A : Arith} {u : ℝ}

/-- Energies that are known well compared with their distances ascend, and so do their distances agree. -/
theorem gap_close {ε : ℝ} {a a' b b' : ℝ} (h : LC ε a' a) (h' : LC ε b' b) (hε : ε ≤ 1 / 10 ^ 6)
    (hg : a + b ≤ 1000 * (b - a)) : LC (1041 * ε) (b' - a') (b - a) := by
  have e0 : 0 ≤ ε := (abs_nonneg _).trans h.2.2
  have d : 0 < b - a := by have := h.2.1; have := h'.2.1; linarith
  obtain ⟨c1, c2⟩ := abs_le.1 (h.rel (by linarith))
  obtain ⟨c3, c4⟩ := abs_le.1 (h'.rel (by linarith))
  have k := mul_le_mul_of_nonneg_left hg (show 0 ≤ 1.02 * ε by linarith)
  refine (LC.of_rel (ε := 1020 * ε) d (by linarith) ?_).mono (by linarith)
  rw [abs_le]
  constructor <;> linarith

/-- The table inside the package at every temperature, and what is made of it. -/
theorem tt_core (hA : StandardModel A u) (hm : Monotone A.rd) (h1 : A.rd 1 = 1) (hu : u ≤ 1 / 10 ^ 10) {ke ks : ℝ}
    (hke : ScaleFactor u 1000 ke) (hks : ScaleFactor u (1 / 1000) ks) (t : ℝ) (m : SpectrumMethod) :
    ∃ (t' : ℝ) (e' e p' p : ℕ → ℝ) (w w' : List LogMsg), TableTemperature (500 * u) t t' ∧
      energySpectrum t' .TT m = .ok (some ((List.range 500).map fun i => (e i, p i)), w) ∧
      ttSpectrumR A ke ks t m = .ok ((List.range 500).map fun i => (e' i, p' i), w') ∧
      (∃ s, energySpectrum t .TT m = .ok (some s, w')) ∧
      (∀ i < 500, LC (12.3 * u) (e' i) (e i)) ∧ (∀ i < 499, e i + e (i + 1) ≤ 1000 * (e (i + 1) - e i)) ∧
      (∀ i < 500, LC (13870 * u) (p' i) (p i)) ∧
      LC (1027 * u) (area ((List.range 500).map fun i => (e' i, p' i))) 1 := by
  have h0 := hA.u_nonneg
  set tc : ℝ := if 1 < t ∧ t < 20 then t else clip 1 20 t with htc
  have c : tc = max 1 (min t 20) := by
    rw [htc]
    split_ifs with h
    · rw [min_eq_left h.2.le, max_eq_right h.1.le]
    · unfold clip
      rcases le_or_gt t 1 with a | a
      · rw [max_eq_right a, min_eq_left (by norm_num), min_eq_left (a.trans (by norm_num)), max_eq_left a]
      · rw [max_eq_left a.le, max_eq_right]
        exact le_min a.le (by norm_num)
  have t1 : 1 ≤ tc := by rw [c]; exact le_max_left _ _
  have t2 : tc ≤ 20 := by rw [c]; exact max_le (by norm_num) (min_le_right _ _)
  obtain ⟨t', e', e, p', p, a1, a2, a3, a4, a5, a6, a7, a8, a9, a10, a11⟩ := tt_table hA hm h1 hu hke hks t1 t2
  have hd : ∀ i < 499, LC (1041 * (12.3 * u)) (e' (i + 1) - e' i) (e (i + 1) - e i) := fun i hi =>
    gap_close (a9 i (by omega)) (a9 (i + 1) (by omega)) (by linarith) (a10 i hi)
  obtain ⟨T', T, -, o1, o2, o3, o4⟩ := prepareR_close hA le_rfl hu (n := 499) (by norm_num) (by norm_num) hd
    (fun i hi => a11 i hi)
  have call : ttCallR A ke ks t = .ok ((List.range 500).map (fun i => (e' i, p' i)),
      if 1 < t ∧ t < 20 then [] else [.ttClipped t]) := by
    unfold ttCallR
    rw [← htc, a7, a6]
    simp only [Bind.bind, Except.bind, List.zip_map']
  have ds : energySpectrum t' .TT .DATA = .ok (some ((List.range 500).map fun i => (e i, p i / T)), (ttCall t').2) := by
    simp only [energySpectrum, dataSpectrum, a8, o2, Bind.bind, Except.bind]
  obtain ⟨s1, w1, q1, q2⟩ := C56_TT t' m
  rw [ds] at q1
  simp only [Except.ok.injEq, Prod.mk.injEq, Option.some.injEq] at q1
  obtain ⟨rfl, rfl⟩ := q1
  obtain ⟨s2, w2, q3, q4⟩ := C56_TT t m
  obtain ⟨cc, -, q5, -⟩ := C54_TT t
  rw [q5] at q3
  simp only [Except.ok.injEq, Prod.mk.injEq, Option.some.injEq] at q3
  obtain ⟨rfl, rfl⟩ := q3
  refine ⟨t', e', e, fun i => A.rd (p' i / T'), fun i => p i / T, _, _, ⟨a1, a2, ?_, ?_, ?_⟩, q2, ?_, ⟨_, q4⟩, a9, a10,
    ?_, o4⟩
  · rw [← c]; exact a3
  · intro h
    refine a4 ?_
    rw [c, min_eq_left (by linarith), max_eq_left h]
  · intro h
    refine a5 ?_
    rw [c, min_eq_right h, max_eq_right (by norm_num)]
  · unfold ttSpectrumR
    rw [call]
    simp only [Bind.bind, Except.bind]
    rw [o1]
    unfold ttCall
    split_ifs <;> rfl
  · intro i hi
    exact (o3 i hi).mono (by linarith)

theorem ascending {n : ℕ} {f g : ℕ → ℝ} (h : ∀ i < n, f i < f (i + 1)) :
    ((List.range (n + 1)).map fun i : ℕ => (f i, g i)).Pairwise (fun p q => p.1 < q.1) := by
  rw [List.pairwise_map]
  refine List.pairwise_lt_range.imp_of_mem ?_
  intro i j hi hj hij
  have hj' := List.mem_range.1 hj
  clear hi hj
  show f i < f j
  induction j with
  | zero => omega
  | succ j ih =>
    rcases Nat.lt_succ_iff_lt_or_eq.1 hij with h' | h'
    · exact (ih h' (by omega)).trans (h j (by omega))
    · rw [h']; exact h j (by omega)

theorem same_of_close {n : ℕ} {e' e p' p : ℕ → ℝ} {εe εp a b : ℝ} (he : ∀ i < n, LC εe (e' i) (e i))
    (hp : ∀ i < n, LC εp (p' i) (p i)) (h1 : εe ≤ 1 / 100) (h2 : εp ≤ 1 / 100) (ha : 1.02 * εe ≤ a) (hb : 1.02 * εp ≤ b) :
    SameSpectrum a b ((List.range n).map fun i => (e' i, p' i)) ((List.range n).map fun i => (e i, p i)) := by
  unfold SameSpectrum
  rw [List.forall₂_map_left_iff, List.forall₂_map_right_iff, List.forall₂_same]
  intro i hi
  have hi' := List.mem_range.1 hi
  exact ⟨((he i hi').rel h1).trans (mul_le_mul_of_nonneg_right ha (he i hi').2.1.le),
    ((hp i hi').rel h2).trans (mul_le_mul_of_nonneg_right hb (hp i hi').2.1.le)⟩

/-- C107.  At every temperature and with every method the computed T-T spectrum is the exact spectrum of a temperature that
differs from the one asked for by rounding errors only, to relative accuracy; it is a usable distribution, and the warnings
are the same. -/
theorem C107_spectrum (hA : StandardModel A u) (hm : Monotone A.rd) (h1 : A.rd 1 = 1) (hu : u ≤ 1 / 10 ^ 10) {ke ks : ℝ}
    (hke : ScaleFactor u 1000 ke) (hks : ScaleFactor u (1 / 1000) ks) (t : ℝ) (m : SpectrumMethod) :
    ∃ (t' : ℝ) (s s' : List (ℝ × ℝ)) (w w' : List LogMsg), TableTemperature (500 * u) t t' ∧
      energySpectrum t' .TT m = .ok (some s, w) ∧ ttSpectrumR A ke ks t m = .ok (s', w') ∧
      (∃ s₀, energySpectrum t .TT m = .ok (some s₀, w')) ∧
      SameSpectrum (13 * u) (14200 * u) s' s ∧ UsableSpectrum (1050 * u) s' := by
  have h0 := hA.u_nonneg
  obtain ⟨t', e', e, p', p, w, w', b1, b2, b3, b4, b5, b6, b7, b8⟩ := tt_core hA hm h1 hu hke hks t m
  refine ⟨t', _, _, w, w', b1, b2, b3, b4, same_of_close b5 b7 (by linarith) (by linarith) (by linarith) (by linarith),
    ⟨?_, ?_, ?_, ?_⟩⟩
  · exact ascending (n := 499) fun i hi => sub_pos.1 (gap_close (b5 i (by omega)) (b5 (i + 1) (by omega)) (by linarith)
      (b6 i hi)).1
  · intro x hx
    obtain ⟨i, hi, rfl⟩ := List.mem_map.1 hx
    exact (b5 i (List.mem_range.1 hi)).1
  · intro x hx
    obtain ⟨i, hi, rfl⟩ := List.mem_map.1 hx
    exact (b7 i (List.mem_range.1 hi)).1
  · have := b8.rel (by linarith)
    exact this.trans (by linarith)

theorem firstMoment_range (n : ℕ) (f g : ℕ → ℝ) (h : ∀ i < n, f i < f (i + 1)) :
    firstMoment ((List.range (n + 1)).map (fun i : ℕ => (f i, g i))) = ∑ i ∈ Finset.range n,
      (f (i + 1) - f i) * ((2 * f i * g i + f i * g (i + 1) + f (i + 1) * g i + 2 * f (i + 1) * g (i + 1)) / 6) := by
  induction n generalizing f g with
  | zero => simp [firstMoment]
  | succ n ih =>
    have := ih (fun i => f (i + 1)) (fun i => g (i + 1)) fun i hi => h (i + 1) (by omega)
    rw [Finset.sum_range_succ', ← this, List.range_succ_eq_map, List.map_cons, List.map_map]
    rw [List.range_succ_eq_map (n := n), List.map_cons, List.map_map]
    have hs := segment_moment (f 0) (f 1) (g 0) (g 1) (h 0 (by omega))
    unfold firstMoment
    simp only [List.tail_cons, List.zipWith_cons_cons, List.sum_cons, Function.comp_def, Nat.succ_eq_add_one, zero_add,
      List.map_cons, List.map_map]
    rw [hs, add_comm]
    congr 1
    ring

/-- Means of close tables are close. -/
theorem tableMean_close {n : ℕ} (hn : 0 < n) {e' e p' p : ℕ → ℝ} {εd εe εp : ℝ}
    (hd : ∀ i < n, LC εd (e' (i + 1) - e' i) (e (i + 1) - e i)) (he : ∀ i < n + 1, LC εe (e' i) (e i))
    (hp : ∀ i < n + 1, LC εp (p' i) (p i)) :
    LC (2 * εd + εe + 2 * εp) (tableMean ((List.range (n + 1)).map fun i => (e' i, p' i)))
      (tableMean ((List.range (n + 1)).map fun i => (e i, p i))) := by
  unfold tableMean
  rw [firstMoment_range n e' p' fun i hi => sub_pos.1 (hd i hi).1, firstMoment_range n e p fun i hi => sub_pos.1 (hd i hi).2.1,
    ← trapezoid_eq_area, ← trapezoid_eq_area, trapezoid_range, trapezoid_range]
  have two := LC.refl (two_pos : (0 : ℝ) < 2)
  have a : LC (εd + εp) (∑ i ∈ Finset.range n, (e' (i + 1) - e' i) * ((p' i + p' (i + 1)) / 2))
      (∑ i ∈ Finset.range n, (e (i + 1) - e i) * ((p i + p (i + 1)) / 2)) := by
    refine LC.range_sum hn fun i hi => ?_
    have := (hd i hi).mul ((((hp i (by omega)).add (hp (i + 1) (by omega))).div two))
    rwa [add_zero] at this
  have b : LC (εd + (εe + εp)) (∑ i ∈ Finset.range n, (e' (i + 1) - e' i) *
        ((2 * e' i * p' i + e' i * p' (i + 1) + e' (i + 1) * p' i + 2 * e' (i + 1) * p' (i + 1)) / 6))
      (∑ i ∈ Finset.range n, (e (i + 1) - e i) *
        ((2 * e i * p i + e i * p (i + 1) + e (i + 1) * p i + 2 * e (i + 1) * p (i + 1)) / 6)) := by
    refine LC.range_sum hn fun i hi => ?_
    have m : ∀ {x x' y y' : ℝ}, LC εe x' x → LC εp y' y → LC (εe + εp) (2 * x' * y') (2 * x * y) := by
      intro x x' y y' hx hy
      have := (two.mul hx).mul hy
      rwa [zero_add] at this
    have i0 : i < n + 1 := by omega
    have i1 : i + 1 < n + 1 := by omega
    have s := (((m (he i i0) (hp i i0)).add ((he i i0).mul (hp (i + 1) i1))).add ((he (i + 1) i1).mul (hp i i0))).add
      (m (he (i + 1) i1) (hp (i + 1) i1))
    have := (hd i hi).mul (s.div (LC.refl (by norm_num : (0 : ℝ) < 6)))
    rwa [add_zero] at this
  exact (b.div a).mono (by linarith)

/-- C107.  The table handed to OpenMC: energies still ascending after the conversion to eV, the mean energy that of the
exact table, which lies between 4.602 and 4.634 MeV. -/
theorem C107_openmc (hA : StandardModel A u) (hm : Monotone A.rd) (h1 : A.rd 1 = 1) (hu : u ≤ 1 / 10 ^ 10) {ke ks kv : ℝ}
    (hke : ScaleFactor u 1000 ke) (hks : ScaleFactor u (1 / 1000) ks) (hkv : ScaleFactor u 1000 kv) (t : ℝ)
    (m : SpectrumMethod) :
    ∃ (t' : ℝ) (s s' : List (ℝ × ℝ)), TableTemperature (500 * u) t t' ∧
      neutronEnergySpectrum m .TT t' = .ok (.tabular s) ∧ ttDistR A ke ks kv t m = .ok (.tabular s') ∧
      SameSpectrum (25 * u) (14200 * u) s' s ∧
      s'.Pairwise (fun p q => p.1 < q.1) ∧ (∀ p ∈ s', 0 < p.1 ∧ 0 < p.2) ∧
      |tableMean s' - tableMean s| ≤ 80000 * u * tableMean s ∧ 4602000 ≤ tableMean s ∧ tableMean s ≤ 4634000 := by
  have h0 := hA.u_nonneg
  obtain ⟨t', e', e, p', p, w, w', b1, b2, b3, b4, b5, b6, b7, b8⟩ := tt_core hA hm h1 hu hke hks t m
  have le : ∀ i < 500, LC (23.8 * u) (A.rd (e' i * kv)) (e i * 1000) := by
    intro i hi
    have k := LC.of_rel (by norm_num : (0 : ℝ) < 1000) (by linarith) hkv
    exact (LC.round hA (by linarith) le_rfl ((b5 i hi).mul k)).mono (by linarith)
  have hd : ∀ i < 499, LC (1041 * (23.8 * u)) (A.rd (e' (i + 1) * kv) - A.rd (e' i * kv)) (e (i + 1) * 1000 - e i * 1000) :=
    fun i hi => gap_close (le i (by omega)) (le (i + 1) (by omega)) (by linarith) (by have := b6 i hi; linarith)
  have mean := tableMean_close (by norm_num : 0 < 499) hd le b7
  have nes : neutronEnergySpectrum m .TT t' = .ok (.tabular ((List.range 500).map fun i => (e i * 1000, p i))) := by
    have : neutronEnergySpectrum m .TT t' = (do
        let s ← energySpectrum t' .TT m
        match s.1 with
        | none => .error .tnsError
        | some l => .ok (.tabular (l.map (fun p => (p.1 * 1000, p.2))))) := by
      cases m <;> rfl
    rw [this, b2]
    simp only [Bind.bind, Except.bind, List.map_map, Function.comp_def]
  obtain ⟨l, c1, c2, c3⟩ := C77_openmc t' m
  have hl : l = (List.range 500).map fun i => (e i * 1000, p i) := by
    rw [show neutronEnergySpectrum m (.n .T_T) t' = neutronEnergySpectrum m .TT t' from rfl, nes] at c1
    simp only [Except.ok.injEq, NeutronDist.tabular.injEq] at c1
    exact c1.symm
  rw [hl] at c2 c3
  refine ⟨t', _, (List.range 500).map fun i => (A.rd (e' i * kv), p' i), b1, nes, ?_,
    same_of_close le b7 (by linarith) (by linarith) (by linarith) (by linarith), ?_, ?_, ?_, c2, c3⟩
  · unfold ttDistR
    rw [b3]
    simp only [Bind.bind, Except.bind, List.map_map, Function.comp_def]
  · exact ascending (n := 499) fun i hi => sub_pos.1 (hd i hi).1
  · intro x hx
    obtain ⟨i, hi, rfl⟩ := List.mem_map.1 hx
    have hi' := List.mem_range.1 hi
    exact ⟨(le i hi').1, (b7 i hi').1⟩
  · exact (mean.rel (by linarith)).trans (mul_le_mul_of_nonneg_right (by linarith) mean.2.1.le)

end

/-- C107.  Without rounding the interpolator of scipy, written out, gives the spectra of the exact model. -/
theorem C107_exact (t : ℝ) (m : SpectrumMethod) :
    ∃ s w, ttSpectrumR exactArith 1000 (1 / 1000) t m = .ok (s, w) ∧ energySpectrum t .TT m = .ok (some s, w) := by
  have hA : StandardModel exactArith 0 :=
    ⟨le_refl _, by norm_num, by simp [exactArith], exact_addsUp, exact_addsUp⟩
  obtain ⟨t', s, s', w, w', k1, k2, k3, ⟨s₀, k4⟩, k5, -⟩ := C107_spectrum (u := 0) hA monotone_id rfl (by norm_num)
    (ke := 1000) (ks := 1 / 1000) (by unfold ScaleFactor; norm_num) (by unfold ScaleFactor; norm_num) t m
  have same : s' = s := by
    unfold SameSpectrum at k5
    clear k2 k3
    induction k5 with
    | nil => rfl
    | cons h _ ih =>
      have a := h.1
      have b := h.2
      simp only [mul_zero, zero_mul] at a b
      have a' := sub_eq_zero.1 (abs_eq_zero.1 (le_antisymm a (abs_nonneg _)))
      have b' := sub_eq_zero.1 (abs_eq_zero.1 (le_antisymm b (abs_nonneg _)))
      rw [ih, Prod.ext a' b']
  have ht : t' = max 1 (min t 20) := by
    have := k1.near
    rw [mul_zero] at this
    exact sub_eq_zero.1 (abs_eq_zero.1 (le_antisymm this (abs_nonneg _)))
  have es : s = s₀ := by
    have e : (ttCall t').1 = (ttCall t).1 := by
      rcases le_or_gt t 1 with a | a
      · rw [k1.below a, (C58_clip t).1 a]
      · rcases le_or_gt 20 t with b | b
        · rw [k1.above b, (C58_clip t).2 b]
        · rw [ht, min_eq_left b.le, max_eq_right a.le]
    obtain ⟨s1, w1, q1, q2⟩ := C56_TT t' m
    obtain ⟨s2, w2, q3, q4⟩ := C56_TT t m
    rw [k2] at q2
    rw [k4] at q4
    simp only [Except.ok.injEq, Prod.mk.injEq, Option.some.injEq] at q2 q4
    rw [q2.1, q4.1]
    simp only [energySpectrum, dataSpectrum, e, Bind.bind, Except.bind] at q1 q3
    cases hd : prepareEnergyPdf (ttCall t).1 with
    | error x => rw [hd] at q1; cases q1
    | ok x =>
      rw [hd] at q1 q3
      simp only [Except.ok.injEq, Prod.mk.injEq, Option.some.injEq] at q1 q3
      rw [← q1.1, ← q3.1]
  refine ⟨s', w', k3, ?_⟩
  rw [same, es]
  exact k4

/-- C107 for binary64: the temperature is met to 1e-13 keV, densities to 2e-12. -/
theorem C107_binary64 {ke ks kv : ℝ} (hke : ScaleFactor ((2 : ℝ) ^ (-53 : ℤ)) 1000 ke)
    (hks : ScaleFactor ((2 : ℝ) ^ (-53 : ℤ)) (1 / 1000) ks) (hkv : ScaleFactor ((2 : ℝ) ^ (-53 : ℤ)) 1000 kv) (t : ℝ)
    (m : SpectrumMethod) :
    ∃ (t' : ℝ) (s s' : List (ℝ × ℝ)), TableTemperature (1 / 10 ^ 13) t t' ∧
      neutronEnergySpectrum m .TT t' = .ok (.tabular s) ∧ ttDistR binary64 ke ks kv t m = .ok (.tabular s') ∧
      SameSpectrum (3 / 10 ^ 15) (2 / 10 ^ 12) s' s ∧
      s'.Pairwise (fun p q => p.1 < q.1) ∧ (∀ p ∈ s', 0 < p.1 ∧ 0 < p.2) ∧
      |tableMean s' - tableMean s| ≤ 1 / 10 ^ 4 ∧ 4602000 ≤ tableMean s ∧ tableMean s ≤ 4634000 := by
  have hu : (2 : ℝ) ^ (-53 : ℤ) ≤ 1.12 / 10 ^ 16 := by
    rw [zpow_neg, show (53 : ℤ) = ((53 : ℕ) : ℤ) by norm_num, zpow_natCast]
    norm_num
  have hu0 : (0 : ℝ) ≤ (2 : ℝ) ^ (-53 : ℤ) := by positivity
  obtain ⟨t', s, s', k1, k2, k3, k4, k5, k6, k7, k8, k9⟩ := C107_openmc C74_binary64 C100_binary64_order round53_one
    (by linarith) hke hks hkv t m
  generalize (2 : ℝ) ^ (-53 : ℤ) = v at *
  refine ⟨t', s, s', ⟨k1.lower, k1.upper, k1.near.trans (by linarith), k1.below, k1.above⟩, k2, k3, ?_, k5, k6, ?_, k8, k9⟩
  · unfold SameSpectrum at k4 ⊢
    clear k2 k3 k5 k7 k8 k9
    induction k4 with
    | nil => exact .nil
    | cons h _ ih =>
      rename_i p' p l' l _
      obtain ⟨q1, q2⟩ := k6 p' (by simp)
      refine .cons ⟨h.1.trans ?_, h.2.trans ?_⟩ (ih fun x hx => k6 x (List.mem_cons_of_mem _ hx))
      · refine mul_le_mul_of_nonneg_right (by linarith) ?_
        by_contra hn
        push Not at hn
        have := (abs_le.1 h.1).2
        nlinarith
      · refine mul_le_mul_of_nonneg_right (by linarith) ?_
        by_contra hn
        push Not at hn
        obtain ⟨_, _⟩ := abs_le.1 h.2
        nlinarith
  · refine k7.trans ?_
    have a := mul_le_mul_of_nonneg_left k9 (show 0 ≤ 80000 * v by linarith)
    linarith

/-- The hypotheses hold for binary64 with scale factors that are exact up to one rounding. -/
example : ScaleFactor ((2 : ℝ) ^ (-53 : ℤ)) 1000 1000 ∧
    ScaleFactor ((2 : ℝ) ^ (-53 : ℤ)) (1 / 1000) (binary64.rd (1 / 1000)) := by
  have h0 : (0 : ℝ) ≤ (2 : ℝ) ^ (-53 : ℤ) := by positivity
  constructor
  · unfold ScaleFactor
    rw [sub_self, abs_zero]
    positivity
  · unfold ScaleFactor
    have := C74_binary64.rel (1 / 1000)
    rw [abs_of_pos (by norm_num : (0 : ℝ) < 1 / 1000)] at this
    linarith

end
end TNS
