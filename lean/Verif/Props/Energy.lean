import Verif.Lemmas.Trim
import Verif.Lemmas.Interp
/-
C54-C58: neutron energy spectra.
-/

set_option autoImplicit false
set_option linter.unusedSectionVars false

namespace TNS
open Spec

/-! ## C55 -/

section
variable {K : Type} [Field K] [DecidableEq K]

/-- Trimming a table of pairs with the mask of its values. -/
def trimTable (l : List (K × K)) : Except Err (List (K × K)) := do
  let mask ← trimZeroMask (l.map Prod.snd)
  .ok (List.zip (applyMask mask (l.map Prod.fst)) (applyMask mask (l.map Prod.snd)))

theorem zip_fst_snd {α β : Type} (l : List (α × β)) :
    List.zip (l.map Prod.fst) (l.map Prod.snd) = l := by
  induction l with
  | nil => rfl
  | cons a l ih => simp [ih]

theorem mask_of_split (pre mid post : List (K × K)) (x : K × K) (h1 : ∀ p ∈ pre, p.2 = 0)
    (h2 : ∀ p ∈ post, p.2 = 0) (h3 : x.2 ≠ 0) (y : K × K) (h4 : (x :: mid).getLast? = some y)
    (h5 : y.2 ≠ 0) : ∃ mask,
      trimZeroMask ((pre ++ (x :: mid) ++ post).map Prod.snd) = .ok mask ∧
      applyMask mask ((pre ++ (x :: mid) ++ post).map Prod.snd) = (x :: mid).map Prod.snd ∧
      applyMask mask ((pre ++ (x :: mid) ++ post).map Prod.fst) = (x :: mid).map Prod.fst := by
  have h := trimZeroMask_split (pre.map Prod.snd) (mid.map Prod.snd) (post.map Prod.snd) x.2
    (by simpa using fun a b hb => h1 (b, a) hb) (by simpa using fun a b hb => h2 (b, a) hb) h3 y.2
    (by rw [← List.map_cons, List.getLast?_map, h4]; rfl) h5
  have e : (pre ++ (x :: mid) ++ post).map Prod.snd =
      pre.map Prod.snd ++ (x.2 :: mid.map Prod.snd) ++ post.map Prod.snd := by simp
  have e' : (pre ++ (x :: mid) ++ post).map Prod.fst =
      pre.map Prod.fst ++ (x.1 :: mid.map Prod.fst) ++ post.map Prod.fst := by simp
  refine ⟨_, by rw [e]; exact h, ?_, ?_⟩
  · rw [e]
    have := applyMask_split (pre.map Prod.snd) (x.2 :: mid.map Prod.snd) (post.map Prod.snd)
    simpa using this
  · rw [e']
    have := applyMask_split (pre.map Prod.fst) (x.1 :: mid.map Prod.fst) (post.map Prod.fst)
    simpa using this

/-- **C55**: trimming removes exactly the leading and trailing zeros and keeps energies and values
aligned. -/
theorem C55_trim (l r : List (K × K)) : trimTable l = .ok r ↔ IsTrimmed l r := by
  constructor
  · intro h
    rcases trim_split Prod.snd l with h0 | ⟨pre, x, mid, post, rfl, h1, h2, h3, y, h4, h5⟩
    · unfold trimTable at h
      rw [trimZeroMask_zero _ (by simpa using fun a b hb => h0 (b, a) hb)] at h
      cases h
    · obtain ⟨mask, e1, e2, e3⟩ := mask_of_split pre mid post x h1 h2 h3 y h4 h5
      unfold trimTable at h
      rw [e1] at h
      simp only [Bind.bind, Except.bind, e2, e3, zip_fst_snd, Except.ok.injEq] at h
      subst h
      exact ⟨⟨pre, post, rfl, h1, h2⟩, ⟨x, rfl, h3⟩, ⟨y, h4, h5⟩⟩
  · rintro ⟨⟨pre, post, rfl, h1, h2⟩, ⟨x, hx, h3⟩, ⟨y, h4, h5⟩⟩
    cases r with
    | nil => simp at hx
    | cons x' mid =>
      simp at hx; subst hx
      obtain ⟨mask, e1, e2, e3⟩ := mask_of_split pre mid post x' h1 h2 h3 y h4 h5
      unfold trimTable
      rw [e1]
      simp only [Bind.bind, Except.bind, e2, e3, zip_fst_snd]

/-- **C55**: it raises `EnergySpectrumError` exactly for all-zero input (including empty input). -/
theorem C55_error (l : List (K × K)) (e : Err) :
    trimTable l = .error e ↔ e = .energySpectrumError ∧ ∀ p ∈ l, p.2 = 0 := by
  constructor
  · intro h
    rcases trim_split Prod.snd l with h0 | ⟨pre, x, mid, post, rfl, h1, h2, h3, y, h4, h5⟩
    · unfold trimTable at h
      rw [trimZeroMask_zero _ (by simpa using fun a b hb => h0 (b, a) hb)] at h
      cases h
      exact ⟨rfl, h0⟩
    · obtain ⟨mask, e1, e2, e3⟩ := mask_of_split pre mid post x h1 h2 h3 y h4 h5
      unfold trimTable at h
      rw [e1] at h
      cases h
  · rintro ⟨rfl, h0⟩
    unfold trimTable
    rw [trimZeroMask_zero _ (by simpa using fun a b hb => h0 (b, a) hb)]
    rfl

/-- **C55**: trimming again changes nothing. -/
theorem C55_idempotent (l r : List (K × K)) (h : trimTable l = .ok r) : trimTable r = .ok r := by
  rw [C55_trim] at h ⊢
  exact ⟨⟨[], [], by simp, by simp, by simp⟩, h.first, h.last⟩

end

/-- Interior zeros stay. -/
example : IsTrimmed [(1, 0), (2, 5), (3, 0), (4, 7), ((5 : ℚ), (0 : ℚ))]
    [(2, 5), (3, 0), (4, 7)] :=
  ⟨⟨[(1, 0)], [(5, 0)], by simp, by simp, by simp⟩, ⟨(2, 5), rfl, by norm_num⟩,
    ⟨(4, 7), rfl, by norm_num⟩⟩

/-! ## C54 -/

section
variable {K : Type} [Field K] [LinearOrder K] [IsStrictOrderedRing K]

theorem trapezoid_eq_area (l : List (K × K)) : trapezoid l = area l := by
  induction l with
  | nil => simp [trapezoid, area]
  | cons p l ih =>
    cases l with
    | nil => simp [trapezoid, area]
    | cons q l =>
      simp only [trapezoid, ih, area, List.tail_cons, List.zipWith_cons_cons, List.sum_cons]
      ring

theorem prepare_of_trim (l r : List (K × K)) (h : trimTable l = .ok r) :
    prepareEnergyPdf l = if trapezoid r = 0 then .error .nonFinite
      else .ok (r.map (fun p => (p.1, p.2 / trapezoid r))) := by
  have h' := (C55_trim l r).1 h
  obtain ⟨⟨pre, post, rfl, h1, h2⟩, ⟨x, hx, h3⟩, ⟨y, h4, h5⟩⟩ := h'
  cases r with
  | nil => simp at hx
  | cons x' mid =>
    simp at hx; subst hx
    obtain ⟨mask, e1, e2, e3⟩ := mask_of_split pre mid post x' h1 h2 h3 y h4 h5
    unfold prepareEnergyPdf
    rw [e1]
    simp only [Bind.bind, Except.bind, e2, e3, zip_fst_snd]
    congr 2
    generalize trapezoid (x' :: mid) = c
    generalize x' :: mid = l
    induction l with
    | nil => rfl
    | cons a l ih =>
      simp only [List.map_cons, List.zip_cons_cons]
      rw [ih]

/-- **C54**, the preparation step: a tabulated non-negative density on increasing energies with at
least two non-zero values is prepared without error; the result has the energies of the input
without the leading and trailing zeros, values proportional to the input's, unit area, and non-zero
first and last values. -/
theorem C54_prepare (l : List (K × K)) (hs : l.Pairwise (fun p q => p.1 < q.1))
    (hp : ∀ p ∈ l, 0 ≤ p.2) (h2 : 2 ≤ (l.filter (fun p => p.2 ≠ 0)).length) :
    ∃ r c, prepareEnergyPdf l = .ok (r.map (fun p => (p.1, c * p.2))) ∧ IsTrimmed l r ∧ 0 < c ∧
      area (r.map (fun p => (p.1, c * p.2))) = 1 := by
  obtain ⟨r, hr⟩ : ∃ r, trimTable l = .ok r := by
    cases ht : trimTable l with
    | ok r => exact ⟨r, rfl⟩
    | error e =>
      have := ((C55_error l e).1 ht).2
      rw [List.filter_eq_nil_iff.2 (by simpa using fun a b hb => this (a, b) hb)] at h2
      simp at h2
  have ht := (C55_trim l r).1 hr
  obtain ⟨pre, post, e, h1, h1'⟩ := ht.split
  have hsub : r.Sublist l := by
    rw [e]
    exact (List.sublist_append_right pre r).trans (List.sublist_append_left _ post)
  have h3 : 2 ≤ r.length := by
    have f1 : pre.filter (fun p => decide (p.2 ≠ 0)) = [] :=
      List.filter_eq_nil_iff.2 (by simpa using fun a b hb => h1 (a, b) hb)
    have f2 : post.filter (fun p => decide (p.2 ≠ 0)) = [] :=
      List.filter_eq_nil_iff.2 (by simpa using fun a b hb => h1' (a, b) hb)
    rw [e, List.filter_append, List.filter_append, f1, f2] at h2
    simp only [List.nil_append, List.append_nil] at h2
    exact h2.trans (List.length_filter_le _ _)
  obtain ⟨x, hx, hx0⟩ := ht.first
  have hpos : 0 < trapezoid r := trapezoid_pos r (hs.sublist hsub)
    (fun p hp' => hp p (hsub.subset hp')) h3 ⟨x, List.mem_of_mem_head? hx, hx0⟩
  refine ⟨r, (trapezoid r)⁻¹, ?_, ht, inv_pos.2 hpos, ?_⟩
  · rw [prepare_of_trim l r hr, if_neg hpos.ne']
    simp only [div_eq_mul_inv, mul_comm]
  · rw [← trapezoid_eq_area, trapezoid_scale, inv_mul_cancel₀ hpos.ne']

/-- **C54**, conversely: whenever preparation succeeds the result has unit area and non-zero ends. -/
theorem C54_always_normalised (l s : List (K × K)) (h : prepareEnergyPdf l = .ok s) :
    area s = 1 ∧ (∃ p, s.head? = some p ∧ p.2 ≠ 0) ∧ (∃ p, s.getLast? = some p ∧ p.2 ≠ 0) := by
  cases ht : trimTable l with
  | error e =>
    have := ((C55_error l e).1 ht).2
    unfold prepareEnergyPdf at h
    rw [trimZeroMask_zero _ (by simpa using fun a b hb => this (b, a) hb)] at h
    cases h
  | ok r =>
    rw [prepare_of_trim l r ht] at h
    split_ifs at h with h0
    cases h
    have hr := (C55_trim l r).1 ht
    refine ⟨?_, ?_, ?_⟩
    · have : (r.map (fun p => (p.1, p.2 / trapezoid r))) =
          r.map (fun p => (p.1, (trapezoid r)⁻¹ * p.2)) := by
        simp only [div_eq_mul_inv, mul_comm]
      rw [this, ← trapezoid_eq_area, trapezoid_scale, inv_mul_cancel₀ h0]
    · obtain ⟨x, hx, hx0⟩ := hr.first
      exact ⟨_, by rw [List.head?_map, hx]; rfl, div_ne_zero hx0 h0⟩
    · obtain ⟨x, hx, hx0⟩ := hr.last
      exact ⟨_, by rw [List.getLast?_map, hx]; rfl, div_ne_zero hx0 h0⟩

end

/-- A table meeting the hypotheses of `C54_prepare`, with zeros at both ends and inside. -/
def exampleTable : List (ℚ × ℚ) := [(1, 0), (2, 5), (3, 0), (4, 7), (5, 0)]

example : ∃ r c, prepareEnergyPdf exampleTable =
    .ok (r.map (fun p => (p.1, c * p.2))) ∧ IsTrimmed exampleTable r ∧ 0 < c ∧
      area (r.map (fun p => (p.1, c * p.2))) = 1 :=
  C54_prepare _ (by decide +kernel) (by decide +kernel) (by decide +kernel)

/-- A positive tabulated density is only rescaled. -/
theorem prepare_pos (l : List (ℝ × ℝ)) (hs : l.Pairwise (fun p q => p.1 < q.1))
    (hp : ∀ p ∈ l, 0 < p.2) (h2 : 2 ≤ l.length) :
    ∃ c, 0 < c ∧ prepareEnergyPdf l = .ok (l.map (fun p => (p.1, c * p.2))) ∧
      area (l.map (fun p => (p.1, c * p.2))) = 1 := by
  have hf : l.filter (fun p => decide (p.2 ≠ 0)) = l :=
    List.filter_eq_self.2 (fun p h => by simpa using (hp p h).ne')
  obtain ⟨r, c, e, ht, hc, ha⟩ := C54_prepare l hs (fun p h => (hp p h).le) (by rw [hf]; exact h2)
  have : r = l := by
    obtain ⟨pre, post, rfl, h1, h1'⟩ := ht.split
    have e1 : pre = [] := by
      cases pre with
      | nil => rfl
      | cons a p => exact absurd (h1 a (by simp)) (hp a (by simp)).ne'
    have e2 : post = [] := by
      cases post with
      | nil => rfl
      | cons a p => exact absurd (h1' a (by simp)) (hp a (by simp)).ne'
    simp [e1, e2]
  subst this
  exact ⟨c, hc, e, ha⟩

/-! ## C57 -/

/-- The published mean and standard deviation of the two Ballabio reactions. -/
noncomputable def specMean : Neutronic → ℝ → ℝ
  | .D_T => meanDT
  | .D_D => meanDD
  | .T_T => fun _ => 0
noncomputable def specSigma : Neutronic → ℝ → ℝ
  | .D_T => sigmaDT
  | .D_D => sigmaDD
  | .T_T => fun _ => 0

theorem rpow_bounds (t a : ℝ) (ht : 0 < t) (h40 : t ≤ 40) (ha : 0 < a) (ha' : a ≤ 1 / 2) :
    0 < t ^ a ∧ t ^ a ≤ 7 := by
  refine ⟨Real.rpow_pos_of_pos ht a, ?_⟩
  have h1 : t ^ a ≤ 49 ^ a := Real.rpow_le_rpow ht.le (by linarith) ha.le
  have h2 : (49 : ℝ) ^ a ≤ 49 ^ ((1 : ℝ) / 2) :=
    Real.rpow_le_rpow_of_exponent_le (by norm_num) ha'
  have h3 : (49 : ℝ) ^ ((1 : ℝ) / 2) = 7 := by
    rw [← Real.sqrt_eq_rpow, show (49 : ℝ) = 7 ^ 2 by norm_num, Real.sqrt_sq (by norm_num)]
  linarith

theorem rpow_two_thirds (t : ℝ) (ht : 0 < t) (h40 : t ≤ 40) :
    0 < t ^ ((2 : ℝ) / 3) ∧ t ^ ((2 : ℝ) / 3) ≤ 12 := by
  refine ⟨Real.rpow_pos_of_pos ht _, ?_⟩
  have h3 : (1728 : ℝ) ^ ((1 : ℝ) / 3) = 12 := by
    rw [show (1728 : ℝ) = 12 ^ (3 : ℝ) by norm_num, ← Real.rpow_mul (by norm_num)]; norm_num
  have h1 : t ^ ((2 : ℝ) / 3) = (t ^ (2 : ℝ)) ^ ((1 : ℝ) / 3) := by
    rw [← Real.rpow_mul ht.le]; norm_num
  rw [h1, ← h3]
  refine Real.rpow_le_rpow (by positivity) ?_ (by norm_num)
  rw [Real.rpow_two]; nlinarith

theorem sqrt_bounds (t : ℝ) (ht : 0 < t) (h40 : t ≤ 40) :
    0 < Real.sqrt t ∧ Real.sqrt t ≤ 6.33 := by
  refine ⟨Real.sqrt_pos.2 ht, ?_⟩
  rw [Real.sqrt_le_iff]; norm_num; linarith

/-- **C57**, moments: for `0 < T ≤ 40` keV the mean and standard deviation are the published ones,
the mean exceeds the cold neutron energy, the standard deviation is positive and below a sixth of
the mean (so the whole grid `μ ± 6σ` is positive). -/
theorem C57_moments (t : ℝ) (ht : 0 < t) (h40 : t ≤ 40) :
    (ballabioDT.meanEnergy t = meanDT t ∧ ballabioDT.stdDeviation t = sigmaDT t ∧
      14021 < meanDT t ∧ 0 < sigmaDT t ∧ 6 * sigmaDT t < meanDT t) ∧
    (ballabioDD.meanEnergy t = meanDD t ∧ ballabioDD.stdDeviation t = sigmaDD t ∧
      2449.5 < meanDD t ∧ 0 < sigmaDD t ∧ 6 * sigmaDD t < meanDD t) := by
  obtain ⟨p1, p2⟩ := rpow_two_thirds t ht h40
  obtain ⟨s1, s2⟩ := sqrt_bounds t ht h40
  have key : ∀ a1 d a4 : ℝ, 0 < a1 → 1 ≤ d → 0 < a4 →
      0 < a1 * t ^ ((2 : ℝ) / 3) / d + a4 * t ∧
      a1 * t ^ ((2 : ℝ) / 3) / d + a4 * t ≤ a1 * 12 + a4 * 40 := by
    intro a1 d a4 h1 hd h4
    constructor
    · positivity
    · have : a1 * t ^ ((2 : ℝ) / 3) / d ≤ a1 * t ^ ((2 : ℝ) / 3) := div_le_self (by positivity) hd
      nlinarith
  have hsig : ∀ w x b : ℝ, 0 < w → 0 < x → x ≤ b → 0 < w * (1 + x) * Real.sqrt t /
      2.3548200450309493 ∧ w * (1 + x) * Real.sqrt t / 2.3548200450309493 ≤
      w * (1 + b) * 6.33 / 2.3548200450309493 := by
    intro w x b hw hx hb
    constructor
    · positivity
    · have hb0 : 0 < b := by linarith
      gcongr
  refine ⟨⟨?_, ?_, ?_, ?_⟩, ⟨?_, ?_, ?_, ?_⟩⟩
  · simp only [Ballabio.meanEnergy, ballabioDT, BallabioCoefficients.fit, meanDT, ballabioFit]
    norm_num; ring
  · simp only [Ballabio.stdDeviation, ballabioDT, BallabioCoefficients.fit, sigmaDT, ballabioFit,
      twoSqrt2Ln2]
    ring
  · have := (key 5.30509 (1 + 2.4736e-3 * t ^ (1.84 : ℝ)) 1.3818 (by norm_num)
      (by have := Real.rpow_pos_of_pos ht (1.84 : ℝ); norm_num; positivity) (by norm_num)).1
    unfold meanDT ballabioFit; linarith
  · obtain ⟨k1, k2⟩ := key 5.1068e-4 (1 + 7.6223e-3 * t ^ (1.78 : ℝ)) 8.7691e-5 (by norm_num)
      (by have := Real.rpow_pos_of_pos ht (1.78 : ℝ); norm_num; positivity) (by norm_num)
    obtain ⟨k3, k4⟩ := hsig 177.259 _ _ (by norm_num) k1 k2
    have := (key 5.30509 (1 + 2.4736e-3 * t ^ (1.84 : ℝ)) 1.3818 (by norm_num)
      (by have := Real.rpow_pos_of_pos ht (1.84 : ℝ); norm_num; positivity) (by norm_num)).1
    unfold sigmaDT meanDT ballabioFit
    refine ⟨k3, ?_⟩
    norm_num at k4 this ⊢
    linarith
  · simp only [Ballabio.meanEnergy, ballabioDD, BallabioCoefficients.fit, meanDD, ballabioFit]
    norm_num; ring
  · simp only [Ballabio.stdDeviation, ballabioDD, BallabioCoefficients.fit, sigmaDD, ballabioFit,
      twoSqrt2Ln2]
    rw [show (7.9460e-4 : ℝ) = 7.946e-4 by norm_num]
    ring
  · obtain ⟨q1, q2⟩ := rpow_bounds t 0.47 ht h40 (by norm_num) (by norm_num)
    have hden : 0 < 1 + (-0.040729) * t ^ (0.47 : ℝ) := by norm_num at q2 ⊢; linarith
    have : 0 < 4.69515 * t ^ ((2 : ℝ) / 3) / (1 + (-0.040729) * t ^ (0.47 : ℝ)) := by positivity
    unfold meanDD ballabioFit; linarith
  · obtain ⟨k1, k2⟩ := key 1.7013e-3 (1 + 0.16888 * t ^ (0.49 : ℝ)) 7.946e-4 (by norm_num)
      (by have := Real.rpow_pos_of_pos ht (0.49 : ℝ); norm_num; positivity) (by norm_num)
    obtain ⟨k3, k4⟩ := hsig 82.542 _ _ (by norm_num) k1 k2
    obtain ⟨q1, q2⟩ := rpow_bounds t 0.47 ht h40 (by norm_num) (by norm_num)
    have hden : 0 < 1 + (-0.040729) * t ^ (0.47 : ℝ) := by norm_num at q2 ⊢; linarith
    have : 0 < 4.69515 * t ^ ((2 : ℝ) / 3) / (1 + (-0.040729) * t ^ (0.47 : ℝ)) := by positivity
    unfold sigmaDD meanDD ballabioFit
    refine ⟨k3, ?_⟩
    norm_num at k4 this ⊢
    linarith

theorem grid_sorted (mu sigma : ℝ) (hs : 0 < sigma) (g : ℝ → ℝ) :
    ((linspace (mu - 6 * sigma) (mu + 6 * sigma) 1000).map (fun e => (e, g e))).Pairwise
      (fun p q => p.1 < q.1) := by
  rw [List.pairwise_map]
  exact linspace_sorted _ _ _ (by linarith) (by norm_num)

/-- The modified Gaussian of any mean and positive width below a sixth of it. -/
theorem modified_ok (mu sigma : ℝ) (hs : 0 < sigma) (h6 : 6 * sigma < mu) :
    ∃ c, 0 < c ∧ modifiedGaussianEnergySpectrum mu sigma =
        .ok ((linspace (mu - 6 * sigma) (mu + 6 * sigma) 1000).map
          (fun e => (e, c * modifiedGaussian mu sigma e))) ∧
      area ((linspace (mu - 6 * sigma) (mu + 6 * sigma) 1000).map
          (fun e => (e, c * modifiedGaussian mu sigma e))) = 1 := by
  have hmu : 0 < mu := by linarith
  have hr : (sigma / mu) ^ 2 < 1 / 36 := by
    have a : sigma / mu < 1 / 6 := by rw [div_lt_div_iff₀ hmu (by norm_num)]; linarith
    have b : 0 < sigma / mu := by positivity
    nlinarith
  have hr0 : 0 < (sigma / mu) ^ 2 := by positivity
  have hf0 : 0 < 1.0 - 1.5 * (sigma / mu) ^ 2 := by norm_num; linarith
  have hf1 : 1.0 - 1.5 * (sigma / mu) ^ 2 < 1 := by norm_num; positivity
  have hsq : 0 < Real.sqrt (1.0 - 1.5 * (sigma / mu) ^ 2) := Real.sqrt_pos.2 hf0
  have hlt : 1.0 - 1.5 * (sigma / mu) ^ 2 < Real.sqrt (1.0 - 1.5 * (sigma / mu) ^ 2) := by
    rw [Real.lt_sqrt hf0.le]; nlinarith
  have hss : 0 < 4.0 / 3.0 * mu ^ 2 * (Real.sqrt (1.0 - 1.5 * (sigma / mu) ^ 2) -
      (1.0 - 1.5 * (sigma / mu) ^ 2)) :=
    mul_pos (by positivity) (by linarith)
  have e : modifiedGaussianEnergySpectrum mu sigma = prepareEnergyPdf
      ((linspace (mu - 6 * sigma) (mu + 6 * sigma) 1000).map
          (fun e => (e, modifiedGaussian mu sigma e))) := by
    unfold modifiedGaussianEnergySpectrum
    simp only
    rw [if_neg hmu.ne', if_neg]
    · refine congrArg prepareEnergyPdf (List.map_congr_left ?_)
      intro x _
      unfold modifiedGaussian
      simp only
      have e1 : (1.0 : ℝ) - 1.5 * (sigma / mu) ^ 2 = 1 - 3 / 2 * (sigma ^ 2 / mu ^ 2) := by
        rw [div_pow]; norm_num
      rw [e1]
      norm_num
      ring
    · push Not
      refine ⟨hf0.le, by positivity, ?_, hss.ne'⟩
      intro x hx
      have := (linspace_mem _ _ _ (by linarith) (by norm_num) x hx).1
      linarith
  obtain ⟨c, hc, e2, ha⟩ := prepare_pos _ (grid_sorted mu sigma hs (modifiedGaussian mu sigma))
    (by
      intro p hp
      obtain ⟨x, -, rfl⟩ := List.mem_map.1 hp
      exact Real.exp_pos _)
    (by rw [List.length_map, linspace_length]; norm_num)
  rw [List.map_map] at e2 ha
  exact ⟨c, hc, by rw [e, e2]; rfl, ha⟩

theorem gaussian_ok (mu sigma : ℝ) (hs : 0 < sigma) :
    ∃ c, 0 < c ∧ gaussianEnergySpectrum mu sigma =
        .ok ((linspace (mu - 6 * sigma) (mu + 6 * sigma) 1000).map
          (fun e => (e, c * Real.exp (-(((e - mu) / sigma) ^ 2 / 2))))) ∧
      area ((linspace (mu - 6 * sigma) (mu + 6 * sigma) 1000).map
          (fun e => (e, c * Real.exp (-(((e - mu) / sigma) ^ 2 / 2))))) = 1 := by
  have hk : 0 < 1 / (sigma * Real.sqrt (2 * Real.pi)) := by
    have := Real.pi_pos
    positivity
  have e : gaussianEnergySpectrum mu sigma = prepareEnergyPdf
      ((linspace (mu - 6 * sigma) (mu + 6 * sigma) 1000).map
          (fun e => (e, 1 / (sigma * Real.sqrt (2 * Real.pi)) *
            Real.exp (-(((e - mu) / sigma) ^ 2 / 2))))) := by
    unfold gaussianEnergySpectrum
    rw [if_neg hs.ne']
    refine congrArg prepareEnergyPdf (List.map_congr_left ?_)
    intro x _
    congr 3
    rw [div_pow]; field_simp
  obtain ⟨c, hc, e2, ha⟩ := prepare_pos _ (grid_sorted mu sigma hs (fun e =>
      1 / (sigma * Real.sqrt (2 * Real.pi)) * Real.exp (-(((e - mu) / sigma) ^ 2 / 2))))
    (by
      intro p hp
      obtain ⟨x, -, rfl⟩ := List.mem_map.1 hp
      exact mul_pos hk (Real.exp_pos _))
    (by rw [List.length_map, linspace_length]; norm_num)
  rw [List.map_map] at e2 ha
  refine ⟨c * (1 / (sigma * Real.sqrt (2 * Real.pi))), mul_pos hc hk, ?_, ?_⟩
  · rw [e, e2]; simp only [Function.comp_def, mul_assoc]
  · simp only [Function.comp_def] at ha
    simp only [mul_assoc] at ha ⊢
    exact ha

/-- **C57**: for every `0 < T ≤ 40` keV, for D-T and D-D, both Ballabio spectra are defined: on the
1000-point grid from `μ - 6σ` to `μ + 6σ` (all energies positive) the values are a positive multiple
of the (modified) Gaussian of the published mean `μ` and standard deviation `σ`, with unit area. -/
theorem C57_spectra (r : Neutronic) (hr : r ≠ .T_T) (t : ℝ) (ht : 0 < t) (h40 : t ≤ 40) :
    let μ := specMean r t
    let σ := specSigma r t
    let grid := linspace (μ - 6 * σ) (μ + 6 * σ) 1000
    (∀ e ∈ grid, 0 < e) ∧
    (∃ c, 0 < c ∧ energySpectrum t (.n r) .BALLABIO_GAUSSIAN =
        .ok (some (grid.map (fun e => (e, c * Real.exp (-(((e - μ) / σ) ^ 2 / 2))))), []) ∧
      area (grid.map (fun e => (e, c * Real.exp (-(((e - μ) / σ) ^ 2 / 2))))) = 1) ∧
    (∃ c, 0 < c ∧ energySpectrum t (.n r) .BALLABIO_M_GAUSSIAN =
        .ok (some (grid.map (fun e => (e, c * modifiedGaussian μ σ e))), []) ∧
      area (grid.map (fun e => (e, c * modifiedGaussian μ σ e))) = 1) := by
  obtain ⟨⟨a1, a2, a3, a4, a5⟩, b1, b2, b3, b4, b5⟩ := C57_moments t ht h40
  have core : ∀ (b : Ballabio) (μ σ : ℝ), (Reaction.n r).ballabio = some b → b.meanEnergy t = μ →
      b.stdDeviation t = σ → 0 < σ → 6 * σ < μ → 1 + b.shift.a2 * t ^ b.shift.a3 ≠ 0 →
      1 + b.width.a2 * t ^ b.width.a3 ≠ 0 →
      (∀ e ∈ linspace (μ - 6 * σ) (μ + 6 * σ) 1000, 0 < e) ∧
      (∃ c, 0 < c ∧ energySpectrum t (.n r) .BALLABIO_GAUSSIAN =
        .ok (some ((linspace (μ - 6 * σ) (μ + 6 * σ) 1000).map
          (fun e => (e, c * Real.exp (-(((e - μ) / σ) ^ 2 / 2))))), []) ∧
      area ((linspace (μ - 6 * σ) (μ + 6 * σ) 1000).map
        (fun e => (e, c * Real.exp (-(((e - μ) / σ) ^ 2 / 2))))) = 1) ∧
      (∃ c, 0 < c ∧ energySpectrum t (.n r) .BALLABIO_M_GAUSSIAN =
        .ok (some ((linspace (μ - 6 * σ) (μ + 6 * σ) 1000).map
          (fun e => (e, c * modifiedGaussian μ σ e))), []) ∧
      area ((linspace (μ - 6 * σ) (μ + 6 * σ) 1000).map
        (fun e => (e, c * modifiedGaussian μ σ e))) = 1) := by
    intro b μ σ hb hμ hσ h0 h6 hd1 hd2
    refine ⟨?_, ?_, ?_⟩
    · intro e he
      have := (linspace_mem _ _ _ (by linarith) (by norm_num) e he).1
      linarith
    · obtain ⟨c, hc, e, ha⟩ := gaussian_ok μ σ h0
      refine ⟨c, hc, ?_, ha⟩
      simp only [energySpectrum, hb, ballabioSpectrum]
      rw [if_neg (by
        rintro (h | h | h)
        · linarith
        · exact hd1 h
        · exact hd2 h)]
      rw [hμ, hσ, e]; rfl
    · obtain ⟨c, hc, e, ha⟩ := modified_ok μ σ h0 h6
      refine ⟨c, hc, ?_, ha⟩
      simp only [energySpectrum, hb, ballabioSpectrum]
      rw [if_neg (by
        rintro (h | h | h)
        · linarith
        · exact hd1 h
        · exact hd2 h)]
      rw [hμ, hσ, e]; rfl
  cases r with
  | D_T =>
    refine core ballabioDT _ _ rfl a1 a2 a4 a5 ?_ ?_
    · have := Real.rpow_pos_of_pos ht (1.84 : ℝ)
      simp only [ballabioDT]; norm_num at this ⊢; positivity
    · have := Real.rpow_pos_of_pos ht (1.78 : ℝ)
      simp only [ballabioDT]; norm_num at this ⊢; positivity
  | D_D =>
    refine core ballabioDD _ _ rfl b1 b2 b4 b5 ?_ ?_
    · obtain ⟨q1, q2⟩ := rpow_bounds t 0.47 ht h40 (by norm_num) (by norm_num)
      simp only [ballabioDD]
      have : 0 < 1 + (-0.040729) * t ^ (0.47 : ℝ) := by norm_num at q2 ⊢; linarith
      exact this.ne'
    · have := Real.rpow_pos_of_pos ht (0.49 : ℝ)
      simp only [ballabioDD]; norm_num at this ⊢; positivity
  | T_T => exact absurd rfl hr

end TNS
