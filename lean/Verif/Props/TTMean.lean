import Verif.Lemmas.TTMoments
import Verif.Props.SdefSource
import Verif.Props.OpenMCSpectrum
/-
C77: the two exports of the T-T spectrum have different mean energies.
-/

set_option autoImplicit false
set_option linter.unusedSectionVars false

namespace TNS
open Spec

theorem tt_means_table (t c : ℝ) (hc : 0 < c) (h1 : 1 ≤ t) (h2 : t ≤ 20) (l : List (ℝ × ℝ))
    (hl : l = (ttCall t).1.map (fun p => (p.1, c * p.2))) :
    4602 ≤ tableMean l ∧ tableMean l ≤ 4634 ∧
    1052 / 100 ≤ tableMean l - histMean (0 :: l.map Prod.fst) (0 :: l.map Prod.snd) ∧
    tableMean l - histMean (0 :: l.map Prod.fst) (0 :: l.map Prod.snd) ≤ 1053 / 100 := by
  obtain ⟨j, hj, a, b⟩ := C58_cover t h1 h2
  have hd : 0 < ttTemp (j + 1) - ttTemp j := by unfold ttTemp; push_cast; linarith
  obtain ⟨x, hx⟩ : ∃ x, x = (t - ttTemp j) / (ttTemp (j + 1) - ttTemp j) := ⟨_, rfl⟩
  have x0 : 0 ≤ x := hx ▸ div_nonneg (by linarith) hd.le
  have x1 : x ≤ 1 := by rw [hx, div_le_one hd]; linarith
  obtain ⟨σ, hσ⟩ : ∃ σ : ℝ, σ = 1 / 10 ^ 11 := ⟨_, rfl⟩
  have σ0 : 0 < σ := by rw [hσ]; positivity
  obtain ⟨f, hf⟩ : ∃ f : List Nat → ℝ, f = fun r => c * ttLinear r j t := ⟨_, rfl⟩
  have el : l = Data.ttSpectra.map (fun r => (σ * (r.1 : ℝ), f r.2)) := by
    rw [hl, C58_linear j hj t a b, List.map_map]
    apply List.map_congr_left
    intro r _
    simp only [Function.comp, hf, hσ, Prod.mk.injEq, and_true]
    ring
  have scale : ∀ ws, dotR ws Data.ttSpectra f =
      c * dotR ws Data.ttSpectra (fun l => ttLinear l j t) := by
    intro ws
    rw [dotR_comb ws Data.ttSpectra f (fun l => ttLinear l j t) (fun _ => 0) c 0 (by intro r; rw [hf]; ring)]
    ring
  have z : ∀ k, Data.accA0.getD k 0 = 0 := by
    have h0 : ∀ n ∈ Data.accA0, n = 0 := by decide
    intro k
    rw [List.getD_eq_getElem?_getD]
    cases h : Data.accA0[k]? with
    | none => rfl
    | some n => exact h0 n (List.mem_of_getElem? h)
  have zM : Data.accM0 = Data.accA0 := rfl
  have zH : Data.accH0 = Data.accA0 := rfl
  have zS : Data.accS0 = Data.accA0 := rfl
  have dA := dotR_linear _ _ _ vdotA rfl z j t x hx
  have dM := dotR_linear _ _ _ (zM ▸ vdotM) rfl z j t x hx
  have dH := dotR_linear _ _ _ (zH ▸ vdotH) rfl z j t x hx
  have dS := dotR_linear _ _ _ (zS ▸ vdotS) rfl z j t x hx
  obtain ⟨lA, lM, lH, lS⟩ := acc_lengths
  obtain ⟨c1, c2, c3, c4⟩ := sumsAll_spec _ _ _ _ sums_ok j (by rw [lA]; omega) (by rw [lM]; omega)
    (by rw [lH]; omega) (by rw [lS]; omega)
  obtain ⟨pA, pS, e1, e2, e3, e4⟩ := sums_between _ _ _ _ _ _ _ _ c1 c2 c3 c4 x x0 x1 _ _ _ _ rfl rfl rfl rfl
  have wA := weights_area σ f 0 _ _ wA_ok tt_sorted
  have wM := weights_moment σ σ0 f 0 _ _ wM_ok tt_sorted
  have wH := weights_hist σ f 0 _ _ wH_ok
  have wS := weights_sum f _ _ wS_ok
  rw [← el, scale, dA] at wA
  rw [← el, scale, dM] at wM
  rw [scale, dH] at wH
  rw [scale, dS] at wS
  generalize (1 - x) * ((Data.accA20.getD j 0 : ℕ) : ℝ) + x * ((Data.accA20.getD (j + 1) 0 : ℕ) : ℝ) = A at *
  generalize (1 - x) * ((Data.accM20.getD j 0 : ℕ) : ℝ) + x * ((Data.accM20.getD (j + 1) 0 : ℕ) : ℝ) = M at *
  generalize (1 - x) * ((Data.accH20.getD j 0 : ℕ) : ℝ) + x * ((Data.accH20.getD (j + 1) 0 : ℕ) : ℝ) = H at *
  generalize (1 - x) * ((Data.accS20.getD j 0 : ℕ) : ℝ) + x * ((Data.accS20.getD (j + 1) 0 : ℕ) : ℝ) = S at *
  clear dA dM dH dS c1 c2 c3 c4
  have hm : histMean (0 :: l.map Prod.fst) (0 :: l.map Prod.snd) = H / (2 * 10 ^ 11 * S) := by
    have m1 : l.map Prod.fst = Data.ttSpectra.map (fun r => σ * (r.1 : ℝ)) := by
      rw [el, List.map_map]; rfl
    have m2 : l.map Prod.snd = Data.ttSpectra.map (fun r => f r.2) := by
      rw [el, List.map_map]; rfl
    unfold histMean
    rw [m1, m2]
    simp only [List.tail_cons]
    simp only [Nat.cast_zero, mul_zero] at wH
    rw [wH, wS, hσ]
    field_simp
  have tm : tableMean l = M / (3 * 10 ^ 11 * A) := by
    unfold tableMean
    have q1 : area l = σ * (c * (A / 10 ^ 95)) / 2 := by
      simp only [Nat.cast_zero, mul_zero, zero_mul, zero_add] at wA
      linarith
    have q2 : firstMoment l = σ ^ 2 * (c * (M / 10 ^ 95)) / 6 := by
      simp only [Nat.cast_zero, mul_zero, zero_mul, zero_add] at wM
      linarith
    rw [q1, q2, hσ]
    field_simp
    ring
  rw [hm, tm]
  have dd : M / (3 * 10 ^ 11 * A) - H / (2 * 10 ^ 11 * S) =
      (2 * (M * S) - 3 * (H * A)) / (6 * 10 ^ 11 * (A * S)) := by
    field_simp
    ring
  have pAS : 0 < A * S := mul_pos pA pS
  refine ⟨?_, ?_, ?_, ?_⟩
  · rw [le_div_iff₀ (by positivity)]; linarith
  · rw [div_le_iff₀ (by positivity)]; linarith
  · rw [dd, le_div_iff₀ (by positivity)]; linarith
  · rw [dd, div_le_iff₀ (by positivity)]; linarith

theorem tt_means (t c : ℝ) (hc : 0 < c) (l : List (ℝ × ℝ))
    (hl : l = (ttCall t).1.map (fun p => (p.1, c * p.2))) :
    4602 ≤ tableMean l ∧ tableMean l ≤ 4634 ∧
    1052 / 100 ≤ tableMean l - histMean (0 :: l.map Prod.fst) (0 :: l.map Prod.snd) ∧
    tableMean l - histMean (0 :: l.map Prod.fst) (0 :: l.map Prod.snd) ≤ 1053 / 100 := by
  by_cases h1 : t ≤ 1
  · exact tt_means_table 1 c hc le_rfl (by norm_num) l (by rw [hl, (C58_clip t).1 h1])
  by_cases h2 : 20 ≤ t
  · exact tt_means_table 20 c hc (by norm_num) le_rfl l (by rw [hl, (C58_clip t).2 h2])
  exact tt_means_table t c hc (not_le.1 h1).le (not_le.1 h2).le l hl

/-- **C77**: at every temperature the mean of the T-T spectrum is between 4602 and 4634 keV. -/
theorem C77_mean (t : ℝ) (method : SpectrumMethod) : ∃ l w,
    energySpectrum t .TT method = .ok (some l, w) ∧ 4602 ≤ tableMean l ∧ tableMean l ≤ 4634 := by
  obtain ⟨s, w, e1, e2⟩ := C56_TT t method
  obtain ⟨c, hc, e3, -⟩ := C54_TT t
  rw [e3] at e1
  simp only [Except.ok.injEq, Prod.mk.injEq, Option.some.injEq] at e1
  obtain ⟨a, b, -⟩ := tt_means t c hc s e1.1.symm
  exact ⟨s, _, e2, a, b⟩

theorem integral_scale (a b p q k : ℝ) (hk : 0 < k) (h : a < b) :
    (∫ x in (k * a)..(k * b), x * (p + (q - p) * ((x - k * a) / (k * b - k * a)))) =
      k ^ 2 * ∫ x in a..b, x * (p + (q - p) * ((x - a) / (b - a))) := by
  rw [segment_moment _ _ _ _ h, segment_moment _ _ _ _ (by gcongr)]
  ring

theorem firstMoment_scale (k : ℝ) (hk : 0 < k) (l : List (ℝ × ℝ))
    (hs : l.Pairwise (fun p q => p.1 < q.1)) :
    firstMoment (l.map (fun p => (k * p.1, p.2))) = k ^ 2 * firstMoment l := by
  induction l with
  | nil => simp [firstMoment]
  | cons p l ih =>
    cases l with
    | nil => simp [firstMoment]
    | cons q l =>
      have ih := ih (List.pairwise_cons.1 hs).2
      have hlt := (List.pairwise_cons.1 hs).1 q (by simp)
      simp only [firstMoment, List.map_cons, List.tail_cons, List.zipWith_cons_cons, List.sum_cons] at ih ⊢
      rw [ih, integral_scale _ _ _ _ k hk hlt]
      ring

theorem area_stretch (k : ℝ) (l : List (ℝ × ℝ)) :
    area (l.map (fun p => (k * p.1, p.2))) = k * area l := by
  induction l with
  | nil => simp [area]
  | cons p l ih =>
    cases l with
    | nil => simp [area]
    | cons q l =>
      simp only [area, List.map_cons, List.tail_cons, List.zipWith_cons_cons, List.sum_cons] at ih ⊢
      rw [ih]
      ring

/-- **C77**, OpenMC: the distribution of the exported T-T neutrons is tabulated, and its mean is between
4.602 and 4.634 MeV, at every temperature and with every method. -/
theorem C77_openmc (t : ℝ) (method : SpectrumMethod) : ∃ l,
    neutronEnergySpectrum method (.n .T_T) t = .ok (.tabular l) ∧
      4602000 ≤ tableMean l ∧ tableMean l ≤ 4634000 := by
  obtain ⟨d, e, hd⟩ := C69_TT t method
  obtain ⟨c, hc, e3, -⟩ := C54_TT t
  cases hd with
  | normal _ hr => exact absurd rfl hr
  | modified _ _ _ hr => exact absurd rfl hr
  | data keV w _ hk hpos hspec =>
    refine ⟨_, e, ?_⟩
    have hk' : energySpectrum t .TT .DATA = .ok (some keV, w) := hk
    rw [e3] at hk'
    simp only [Except.ok.injEq, Prod.mk.injEq, Option.some.injEq] at hk'
    obtain ⟨a, b, -⟩ := tt_means t c hc keV hk'.1.symm
    have : tableMean (keV.map (fun p => (1000 * p.1, p.2))) = 1000 * tableMean keV := by
      unfold tableMean
      rw [firstMoment_scale 1000 (by norm_num) keV hspec.sorted, area_stretch, hspec.unit]
      ring
    rw [this]
    constructor <;> linarith

/-! ### Printing -/

theorem histMean_printed (φ : ℝ → ℝ) (ε : ℝ) (h0 : 0 ≤ ε) (h1 : ε < 1)
    (hφ : ∀ x, |φ x - x| ≤ ε * |x|) (bounds probs : List ℝ)
    (hb : ∀ b ∈ bounds, 0 ≤ b) (hp : ∀ p ∈ probs, 0 ≤ p) (hs : 0 < probs.tail.sum) :
    (1 - ε) ^ 2 / (1 + ε) * histMean bounds probs ≤ histMean (bounds.map φ) (probs.map φ) ∧
    histMean (bounds.map φ) (probs.map φ) ≤ (1 + ε) ^ 2 / (1 - ε) * histMean bounds probs := by
  have lo : ∀ x, 0 ≤ x → (1 - ε) * x ≤ φ x := fun x hx => by
    have := abs_le.1 (hφ x); rw [abs_of_nonneg hx] at this; linarith
  have hi : ∀ x, 0 ≤ x → φ x ≤ (1 + ε) * x := fun x hx => by
    have := abs_le.1 (hφ x); rw [abs_of_nonneg hx] at this; linarith
  have e0 : 0 < 1 - ε := by linarith
  have nn : ∀ x, 0 ≤ x → 0 ≤ φ x := fun x hx => le_trans (mul_nonneg e0.le hx) (lo x hx)
  have hsum : ∀ l : List ℝ, (∀ p ∈ l, 0 ≤ p) →
      (1 - ε) * l.sum ≤ (l.map φ).sum ∧ (l.map φ).sum ≤ (1 + ε) * l.sum := by
    intro l hl
    induction l with
    | nil => simp
    | cons p l ih =>
      obtain ⟨i1, i2⟩ := ih (fun q hq => hl q (by simp [hq]))
      have := lo p (hl p (by simp))
      have := hi p (hl p (by simp))
      simp only [List.map_cons, List.sum_cons]
      constructor <;> linarith
  have hnum : ∀ (bs : List (ℝ × ℝ)) (l : List ℝ), (∀ b ∈ bs, 0 ≤ b.1 ∧ 0 ≤ b.2) → (∀ p ∈ l, 0 ≤ p) →
      0 ≤ (List.zipWith (fun (b : ℝ × ℝ) p => p * ((b.1 + b.2) / 2)) bs l).sum ∧
      (1 - ε) ^ 2 * (List.zipWith (fun (b : ℝ × ℝ) p => p * ((b.1 + b.2) / 2)) bs l).sum ≤
        (List.zipWith (fun (b : ℝ × ℝ) p => p * ((b.1 + b.2) / 2))
          (bs.map (Prod.map φ φ)) (l.map φ)).sum ∧
      (List.zipWith (fun (b : ℝ × ℝ) p => p * ((b.1 + b.2) / 2))
          (bs.map (Prod.map φ φ)) (l.map φ)).sum ≤
        (1 + ε) ^ 2 * (List.zipWith (fun (b : ℝ × ℝ) p => p * ((b.1 + b.2) / 2)) bs l).sum := by
    intro bs
    induction bs with
    | nil => intro l _ _; simp
    | cons b bs ih =>
      intro l hb hl
      cases l with
      | nil => simp
      | cons p l =>
        obtain ⟨i0, i1, i2⟩ := ih l (fun q hq => hb q (by simp [hq])) (fun q hq => hl q (by simp [hq]))
        obtain ⟨b1, b2⟩ := hb b (by simp)
        have p0 := hl p (by simp)
        have u : 0 ≤ (b.1 + b.2) / 2 := by linarith
        have L : (1 - ε) * ((b.1 + b.2) / 2) ≤ (φ b.1 + φ b.2) / 2 := by
          have := lo _ b1; have := lo _ b2; linarith
        have U : (φ b.1 + φ b.2) / 2 ≤ (1 + ε) * ((b.1 + b.2) / 2) := by
          have := hi _ b1; have := hi _ b2; linarith
        have T1 : (1 - ε) * p * ((1 - ε) * ((b.1 + b.2) / 2)) ≤ φ p * ((φ b.1 + φ b.2) / 2) :=
          mul_le_mul (lo p p0) L (mul_nonneg e0.le u) (nn p p0)
        have T2 : φ p * ((φ b.1 + φ b.2) / 2) ≤ (1 + ε) * p * ((1 + ε) * ((b.1 + b.2) / 2)) :=
          mul_le_mul (hi p p0) U (le_trans (mul_nonneg e0.le u) L) (mul_nonneg (by linarith) p0)
        simp only [List.map_cons, List.zipWith_cons_cons, List.sum_cons, Prod.map_fst, Prod.map_snd]
        refine ⟨add_nonneg (mul_nonneg p0 u) i0, ?_, ?_⟩
        · linarith
        · linarith
  have hz : List.zip (bounds.map φ) (bounds.map φ).tail =
      (List.zip bounds bounds.tail).map (Prod.map φ φ) := by
    rw [← List.map_tail, List.zip_map]
  obtain ⟨s1, s2⟩ := hsum probs.tail (fun p hp' => hp p (List.mem_of_mem_tail hp'))
  obtain ⟨n0, n1, n2⟩ := hnum (List.zip bounds bounds.tail) probs.tail
    (fun b hb' => ⟨hb _ (List.of_mem_zip hb').1, hb _ (List.mem_of_mem_tail (List.of_mem_zip hb').2)⟩)
    (fun p hp' => hp p (List.mem_of_mem_tail hp'))
  unfold histMean
  rw [hz, ← List.map_tail]
  generalize (List.zipWith (fun (b : ℝ × ℝ) p => p * ((b.1 + b.2) / 2)) (List.zip bounds bounds.tail)
    probs.tail).sum = N at *
  generalize (List.zipWith (fun (b : ℝ × ℝ) p => p * ((b.1 + b.2) / 2))
    ((List.zip bounds bounds.tail).map (Prod.map φ φ)) (probs.tail.map φ)).sum = N' at *
  generalize (probs.tail.map φ).sum = D' at *
  generalize probs.tail.sum = D at *
  have D0 : 0 < D' := lt_of_lt_of_le (mul_pos e0 hs) s1
  constructor
  · rw [div_mul_div_comm]
    exact div_le_div₀ (le_trans (mul_nonneg (sq_nonneg _) n0) n1) n1 D0 s2
  · rw [div_mul_div_comm]
    exact div_le_div₀ (mul_nonneg (sq_nonneg _) n0) n2 (mul_pos e0 hs) s1

theorem histMean_mev (bounds probs : List ℝ) :
    histMean (bounds.map (fun b => b / 1000)) probs = histMean bounds probs / 1000 := by
  have : ∀ (bs : List (ℝ × ℝ)) (l : List ℝ),
      (List.zipWith (fun (b : ℝ × ℝ) p => p * ((b.1 + b.2) / 2))
        (bs.map (Prod.map (fun b => b / 1000) (fun b => b / 1000))) l).sum =
      (List.zipWith (fun (b : ℝ × ℝ) p => p * ((b.1 + b.2) / 2)) bs l).sum / 1000 := by
    intro bs
    induction bs with
    | nil => intro l; simp
    | cons b bs ih =>
      intro l
      cases l with
      | nil => simp
      | cons p l =>
        simp only [List.map_cons, List.zipWith_cons_cons, List.sum_cons, Prod.map_fst, Prod.map_snd, ih]
        ring
  unfold histMean
  rw [← List.map_tail, List.zip_map, this]
  ring

/-- **C77**, MCNP: the T-T energy histogram of a written SDEF file, read back from its cards, has a mean
energy that is lower by 10.45 to 10.6 keV than the mean of the spectrum it was made from (whose mean is
between 4602 and 4634 keV), at every temperature: the tabulated densities are given to MCNP as the
probabilities of the bins below the tabulated energies. -/
theorem C77_sdef (cit : Citation) (hc : CleanCitation cit) (f : SdefFile ℝ) (T : ℝ)
    (hfT : f.ionTemp = .fin T) (hT : InRange (T / 1000)) (hp : Printable f.cards)
    (hds : f.cards.vertical.map (·.1) = f.cards.ds4) (hnd : f.cards.ds4.Nodup)
    (h5 : ∀ n ∈ f.cards.ds4, 5 ≤ n)
    (text : List Char) (h : sdefText cit .T_T f = .ok text) :
    ∃ l w si sp, energySpectrum T .TT .DATA = .ok (some l, w) ∧
      cardNums (readCards 128 text) "SI2".toList "H".toList = some si ∧
      cardNums (readCards 128 text) "SP2".toList "D".toList = some sp ∧
      4602 ≤ tableMean l ∧ tableMean l ≤ 4634 ∧
      1045 / 100 ≤ tableMean l - 1000 * histMean si sp ∧
      tableMean l - 1000 * histMean si sp ≤ 1060 / 100 := by
  obtain ⟨l, w, φ, e, hs, hφ, -, h1, h2⟩ := C67_tabular cit hc f T hfT hT hp hds hnd h5 text h
  obtain ⟨c, hc, e3, -⟩ := C54_TT T
  have hl := e
  rw [e3] at hl
  simp only [Except.ok.injEq, Prod.mk.injEq, Option.some.injEq] at hl
  obtain ⟨a, b, m1, m2⟩ := tt_means T c hc l hl.1.symm
  refine ⟨l, w, _, _, e, h1, h2, a, b, ?_⟩
  have hb0 : ∀ x ∈ (0 :: l.map Prod.fst), 0 ≤ x := by
    intro x hx
    rcases List.mem_cons.1 hx with rfl | hx
    · exact le_rfl
    · rw [← hl.1, List.map_map] at hx
      have : (ttCall T).1.map (Prod.fst ∘ fun p => (p.1, c * p.2)) = (ttCall T).1.map Prod.fst := rfl
      rw [this, (C58_energy_grid T).1] at hx
      obtain ⟨r, -, rfl⟩ := List.mem_map.1 hx
      positivity
  have hpos : ∀ p ∈ l, 0 < p.2 := by
    intro p hp
    rw [← hl.1] at hp
    obtain ⟨q, hq, rfl⟩ := List.mem_map.1 hp
    exact mul_pos hc (C58_positive T q hq)
  have hne : l ≠ [] := by
    intro h0
    have := (C58_energy_grid T).2.2
    have h3 := congrArg List.length hl.1
    rw [h0, List.length_map, this] at h3
    simp at h3
  have hsum : 0 < (l.map Prod.snd).sum := by
    apply List.sum_pos
    · intro x hx
      obtain ⟨p, hp, rfl⟩ := List.mem_map.1 hx
      exact hpos p hp
    · simpa using hne
  have eb : (0 :: l.map (fun q => q.1 / 1000)) = (0 :: l.map Prod.fst).map (fun b => b / 1000) := by
    simp [Function.comp_def]
  obtain ⟨p1, p2⟩ := histMean_printed φ (5 / 10 ^ 6) (by norm_num) (by norm_num) hφ
    (0 :: l.map (fun q : ℝ × ℝ => q.1 / 1000)) (0 :: l.map (fun q : ℝ × ℝ => q.2))
    (by
      intro x hx
      rw [eb] at hx
      obtain ⟨y, hy, rfl⟩ := List.mem_map.1 hx
      exact div_nonneg (hb0 y hy) (by norm_num))
    (by
      intro x hx
      rcases List.mem_cons.1 hx with rfl | hx
      · exact le_rfl
      · obtain ⟨p, hp, rfl⟩ := List.mem_map.1 hx
        exact (hpos p hp).le)
    hsum
  have em : histMean (0 :: l.map (fun q => q.1 / 1000)) (0 :: l.map (fun q => q.2)) =
      histMean (0 :: l.map Prod.fst) (0 :: l.map Prod.snd) / 1000 := by
    rw [eb, histMean_mev]
  rw [em] at p1 p2
  generalize histMean (0 :: l.map Prod.fst) (0 :: l.map Prod.snd) = H at *
  generalize histMean _ _ = H' at *
  norm_num at p1 p2
  constructor <;> linarith

/-! ### Examples -/

/-- The mean of a uniform density on [0, 2] is 1; that of a density rising from 0 on [0, 3] is 2. -/
example : tableMean [(0, 1), (2, 1)] = 1 ∧ tableMean [(0, 0), (3, 5)] = 2 := by
  constructor
  · simp only [tableMean, firstMoment, area, List.tail_cons, List.zipWith_cons_cons,
      List.zipWith_nil_right, List.sum_cons, List.sum_nil]
    rw [segment_moment _ _ _ _ (by norm_num)]
    norm_num
  · simp only [tableMean, firstMoment, area, List.tail_cons, List.zipWith_cons_cons,
      List.zipWith_nil_right, List.sum_cons, List.sum_nil]
    rw [segment_moment _ _ _ _ (by norm_num)]
    norm_num

/-- Two bins, the upper three times as probable: the mean is (1 + 3 * 3) / 4. -/
example : histMean [0, 2, 4] [0, 1, 3] = 5 / 2 := by
  norm_num [histMean]

/-- The hypotheses of `C77_sdef` hold of a file with two cells and the citation file of the repository. -/
example : ∃ text si sp, sdefText Ex.citation .T_T Ex.fileR = .ok text ∧
    cardNums (readCards 128 text) "SI2".toList "H".toList = some si ∧
    cardNums (readCards 128 text) "SP2".toList "D".toList = some sp ∧
    1000 * histMean si sp ≤ 4624 := by
  have h1 : Ex.fileR.cards.vertical.map (·.1) = Ex.fileR.cards.ds4 := rfl
  have h2 : Ex.fileR.cards.ds4.Nodup := by simp [Ex.fileR]
  have h3 : ∀ n ∈ Ex.fileR.cards.ds4, 5 ≤ n := by simp [Ex.fileR]
  have hT := Ex.rangeR ((13 / 5 : ℝ) / 1000) (by norm_num) (by norm_num)
  obtain ⟨text, -, ht, -⟩ := C67_file Ex.citation Ex.citation_clean .T_T Ex.fileR (13 / 5) rfl hT
    Ex.printableR h1 h2 h3
  obtain ⟨l, w, si, sp, -, e1, e2, -, b, c, -⟩ := C77_sdef Ex.citation Ex.citation_clean Ex.fileR (13 / 5)
    rfl hT Ex.printableR h1 h2 h3 text ht
  exact ⟨text, si, sp, ht, e1, e2, by linarith⟩

end TNS
