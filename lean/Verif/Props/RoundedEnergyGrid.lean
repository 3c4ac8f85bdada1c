import Verif.Props.RoundedEnergy
/-
C99, second part: the energy grid and the normalisation of a spectrum with rounding.
-/

set_option autoImplicit false

namespace TNS
open Spec
noncomputable section

theorem LC.of_near {u a b : ℝ} {k : ℕ} (h0 : 0 ≤ u) (hu : u ≤ 1 / 100) (hb : 0 < b) (h : Near u k a b) :
    LC (k * (1.02 * u)) a b := by
  have l1 : LC (1.02 * u) (1 + u) 1 := LC.of_rel one_pos hu (by simp [abs_of_nonneg h0])
  have l2 : LC (1.02 * u) (1 - u) 1 := LC.of_rel one_pos hu (by simp [abs_of_nonneg h0])
  have ha : 0 < a := lt_of_lt_of_le (mul_pos hb (pow_pos l2.1 k)) h.1
  refine ⟨ha, hb, ?_⟩
  have e1 := Real.log_le_log (mul_pos hb (pow_pos l2.1 k)) h.1
  have e2 := Real.log_le_log ha h.2
  rw [Real.log_mul hb.ne' (pow_pos l2.1 k).ne', Real.log_pow] at e1
  rw [Real.log_mul hb.ne' (pow_pos l1.1 k).ne', Real.log_pow] at e2
  have m1 := (abs_le.1 l1.2.2).2
  have m2 := (abs_le.1 l2.2.2).1
  rw [Real.log_one, sub_zero] at m1 m2
  have k0 : (0 : ℝ) ≤ k := Nat.cast_nonneg k
  have := mul_le_mul_of_nonneg_left m1 k0
  have := mul_le_mul_of_nonneg_left m2 k0
  rw [abs_le]
  constructor <;> linarith

theorem LC.range_sum {ε : ℝ} {n : ℕ} (hn : 0 < n) {f g : ℕ → ℝ} (h : ∀ i < n, LC ε (f i) (g i)) :
    LC ε (∑ i ∈ Finset.range n, f i) (∑ i ∈ Finset.range n, g i) := by
  induction n with
  | zero => omega
  | succ n ih =>
    rw [Finset.sum_range_succ, Finset.sum_range_succ]
    rcases Nat.eq_zero_or_pos n with rfl | hn'
    · simpa using h 0 (by omega)
    · exact (ih hn' fun i hi => h i (by omega)).add (h n (by omega))

section
variable {A : Arith} {F : MathLib} {u v : ℝ}

/-- The integral computed by `trapezoid`. -/
theorem total_close (hA : StandardModel A u) (huv : u ≤ v) (hv : v ≤ 1 / 10 ^ 10) {n : ℕ} (hn0 : 0 < n) (hn : n ≤ 999)
    {e p : ℕ → ℝ} (he : ∀ i < n, e i < e (i + 1)) (hp : ∀ i < n + 1, 0 < p i) :
    LC (1025 * v) (A.npSum (trapezoidTermsR A ((List.range (n + 1)).map fun i : ℕ => (e i, p i))))
      (area ((List.range (n + 1)).map fun i : ℕ => (e i, p i))) := by
  have h0 := hA.u_nonneg
  have hv0 : 0 ≤ v := h0.trans huv
  have hu : u ≤ 1 / 100 := by linarith
  have hw : 1.02 * u ≤ 1.02 * v := by linarith
  rw [trapezoidTermsR_range, ← trapezoid_eq_area, trapezoid_range]
  have term : ∀ i < n, LC (4.1 * v) (A.rd (A.rd (A.rd (e (i + 1) - e i) * A.rd (p (i + 1) + p i)) / 2))
      ((e (i + 1) - e i) * ((p i + p (i + 1)) / 2)) := by
    intro i hi
    have a1 : LC (1.02 * v) (A.rd (e (i + 1) - e i)) (e (i + 1) - e i) := LC.rd hA hu hw (sub_pos.2 (he i hi))
    have a2 : LC (1.02 * v) (A.rd (p (i + 1) + p i)) (p (i + 1) + p i) :=
      LC.rd hA hu hw (add_pos (hp (i + 1) (by omega)) (hp i (by omega)))
    have a3 := LC.round hA hu hw (a1.mul a2)
    have a4 := LC.round hA hu hw (a3.div (LC.refl (two_pos : (0 : ℝ) < 2)))
    have : (e (i + 1) - e i) * ((p i + p (i + 1)) / 2) = (e (i + 1) - e i) * (p (i + 1) + p i) / 2 := by ring
    rw [this]
    exact a4.mono (by linarith)
  set a' : ℕ → ℝ := fun i : ℕ => A.rd (A.rd (A.rd (e (i + 1) - e i) * A.rd (p (i + 1) + p i)) / 2) with ha'
  have s1 := LC.range_sum hn0 term
  have hs : ((List.range n).map a').sum = ∑ i ∈ Finset.range n, a' i := by
    clear_value a'
    clear s1 term hn0 hn he hp
    induction n with
    | zero => simp
    | succ n ih => rw [List.range_succ, List.map_append, List.sum_append, ih, Finset.sum_range_succ]; simp
  have s2 := near_addsUp hA hA.npSum ((List.range n).map a') (by
    intro x hx
    obtain ⟨i, hi, rfl⟩ := List.mem_map.1 hx
    exact (term i (List.mem_range.1 hi)).1.le)
  rw [hs, List.length_map, List.length_range] at s2
  have s3 := LC.of_near h0 hu s1.1 s2
  refine (s3.trans s1).mono ?_
  have : ((n - 1 : ℕ) : ℝ) ≤ 998 := by exact_mod_cast (by omega : n - 1 ≤ 998)
  have := mul_le_mul this hw (by linarith) (by norm_num)
  linarith

/-- The trimming mask keeps a table of positive densities. -/
theorem prepareR_pos (A : Arith) {n : ℕ} {e p : ℕ → ℝ} (hp : ∀ i < n + 1, 0 < p i)
    (ht : A.npSum (trapezoidTermsR A ((List.range (n + 1)).map fun i : ℕ => (e i, p i))) ≠ 0) :
    prepareEnergyPdfR A ((List.range (n + 1)).map fun i : ℕ => (e i, p i)) =
      .ok ((List.range (n + 1)).map fun i : ℕ =>
        (e i, A.rd (p i / A.npSum (trapezoidTermsR A ((List.range (n + 1)).map fun i : ℕ => (e i, p i)))))) := by
  set l := (List.range (n + 1)).map fun i : ℕ => (e i, p i) with hl
  have hpos : ∀ x ∈ l, 0 < x.2 := by
    intro x hx
    obtain ⟨i, hi, rfl⟩ := List.mem_map.1 hx
    exact hp i (List.mem_range.1 hi)
  obtain ⟨x, mid, hxm⟩ : ∃ x mid, l = x :: mid := by
    rw [hl, List.range_succ_eq_map, List.map_cons]
    exact ⟨_, _, rfl⟩
  have key : ∃ mask, trimZeroMask (l.map Prod.snd) = .ok mask ∧ applyMask mask (l.map Prod.snd) = l.map Prod.snd ∧
      applyMask mask (l.map Prod.fst) = l.map Prod.fst := by
    have hne : l ≠ [] := by rw [hxm]; simp
    have := mask_of_split [] mid [] x (by simp) (by simp) (hpos x (by rw [hxm]; simp)).ne'
      (l.getLast hne) (by rw [← hxm]; exact List.getLast?_eq_getLast_of_ne_nil hne) (hpos _ (List.getLast_mem hne)).ne'
    simpa [← hxm] using this
  obtain ⟨mask, k1, k2, k3⟩ := key
  unfold prepareEnergyPdfR
  rw [k1]
  simp only [Bind.bind, Except.bind, k2, k3, zip_fst_snd]
  rw [if_neg ht]
  clear_value l
  generalize A.npSum (trapezoidTermsR A l) = T
  subst hl
  simp [List.map_map, List.zip_map', Function.comp_def]

/-- The normalised table. -/
theorem prepareR_close (hA : StandardModel A u) (huv : u ≤ v) (hv : v ≤ 1 / 10 ^ 10) {n : ℕ} (hn0 : 0 < n) (hn : n ≤ 999)
    {e e' p p' : ℕ → ℝ} {εd εp : ℝ} (hd : ∀ i < n, LC εd (e' (i + 1) - e' i) (e (i + 1) - e i))
    (hp : ∀ i < n + 1, LC εp (p' i) (p i)) :
    ∃ T' T : ℝ, 0 < T' ∧
      prepareEnergyPdfR A ((List.range (n + 1)).map fun i : ℕ => (e' i, p' i)) =
        .ok ((List.range (n + 1)).map fun i : ℕ => (e' i, A.rd (p' i / T'))) ∧
      prepareEnergyPdf ((List.range (n + 1)).map fun i : ℕ => (e i, p i)) =
        .ok ((List.range (n + 1)).map fun i : ℕ => (e i, p i / T)) ∧
      (∀ i < n + 1, LC (2 * εp + εd + 1027 * v) (A.rd (p' i / T')) (p i / T)) ∧
      LC (1027 * v) (area ((List.range (n + 1)).map fun i : ℕ => (e' i, A.rd (p' i / T')))) 1 := by
  have h0 := hA.u_nonneg
  have hv0 : 0 ≤ v := h0.trans huv
  have hu : u ≤ 1 / 100 := by linarith
  have hw : 1.02 * u ≤ 1.02 * v := by linarith
  have he' : ∀ i < n, e' i < e' (i + 1) := fun i hi => sub_pos.1 (hd i hi).1
  have he : ∀ i < n, e i < e (i + 1) := fun i hi => sub_pos.1 (hd i hi).2.1
  have c1 := total_close hA huv hv hn0 hn he' fun i hi => (hp i hi).1
  set T' := A.npSum (trapezoidTermsR A ((List.range (n + 1)).map fun i : ℕ => (e' i, p' i))) with hT'
  set a' := area ((List.range (n + 1)).map fun i : ℕ => (e' i, p' i)) with ha'
  set a := area ((List.range (n + 1)).map fun i : ℕ => (e i, p i)) with ha
  have term : ∀ (E P : ℕ → ℝ), area ((List.range (n + 1)).map fun i : ℕ => (E i, P i)) =
      ∑ i ∈ Finset.range n, (E (i + 1) - E i) * ((P i + P (i + 1)) / 2) := fun E P => by
    rw [← trapezoid_eq_area, trapezoid_range]
  have c2 : LC (εd + εp) a' a := by
    rw [ha', ha, term, term]
    refine LC.range_sum hn0 fun i hi => ?_
    have := (hd i hi).mul ((((hp i (by omega)).add (hp (i + 1) (by omega))).div (LC.refl (two_pos : (0 : ℝ) < 2))))
    rwa [add_zero] at this
  have ok1 := prepareR_pos A (fun i hi => (hp i hi).1) c1.1.ne'
  have q : ∀ i < n + 1, LC (1.02 * v) (A.rd (p' i / T')) (p' i / T') := fun i hi =>
    LC.rd hA hu hw (div_pos (hp i hi).1 c1.1)
  refine ⟨T', a, c1.1, ok1, ?_, ?_, ?_⟩
  · have hs : ((List.range (n + 1)).map fun i : ℕ => (e i, p i)).Pairwise (fun p q => p.1 < q.1) := by
      rw [List.pairwise_map]
      refine List.pairwise_lt_range.imp_of_mem ?_
      intro i j hi hj hij
      have hj' := List.mem_range.1 hj
      clear hi hj
      show e i < e j
      induction j with
      | zero => omega
      | succ j ih =>
        rcases Nat.lt_succ_iff_lt_or_eq.1 hij with h | h
        · exact (ih h (by omega)).trans (he j (by omega))
        · rw [h]; exact he j (by omega)
    obtain ⟨c, hc, e1, e2⟩ := prepare_pos _ hs (by
      intro x hx
      obtain ⟨i, hi, rfl⟩ := List.mem_map.1 hx
      exact (hp i (List.mem_range.1 hi)).2.1) (by simp; omega)
    have hca : c * a = 1 := by
      rw [← e2, List.map_map, ha]
      have t1 := term e p
      have t2 := term e fun i => c * p i
      simp only [Function.comp_def]
      rw [t1, t2, Finset.mul_sum]
      refine Finset.sum_congr rfl fun i _ => by ring
    rw [e1, List.map_map]
    refine congrArg Except.ok (List.map_congr_left fun i _ => ?_)
    show (e i, c * p i) = (e i, p i / a)
    rw [eq_div_of_mul_eq c2.2.1.ne' hca]
    congr 1
    ring
  · intro i hi
    have := (q i hi).trans ((hp i hi).div (c1.trans c2))
    exact this.mono (by linarith)
  · rw [term]
    have s1 : LC (1.02 * v) (∑ i ∈ Finset.range n, (e' (i + 1) - e' i) * ((A.rd (p' i / T') + A.rd (p' (i + 1) / T')) / 2))
        (∑ i ∈ Finset.range n, (e' (i + 1) - e' i) * ((p' i / T' + p' (i + 1) / T') / 2)) := by
      refine LC.range_sum hn0 fun i hi => ?_
      have := (LC.refl (hd i hi).1).mul (((q i (by omega)).add (q (i + 1) (by omega))).div (LC.refl (two_pos : (0 : ℝ) < 2)))
      rwa [add_zero, zero_add] at this
    have s2 : (∑ i ∈ Finset.range n, (e' (i + 1) - e' i) * ((p' i / T' + p' (i + 1) / T') / 2)) = a' / T' := by
      rw [ha', term, div_eq_mul_inv, Finset.sum_mul]
      refine Finset.sum_congr rfl fun i _ => by ring
    rw [s2] at s1
    have s3 := s1.trans (c1.symm.div (LC.refl c1.1))
    rw [div_self c1.1.ne'] at s3
    exact s3.mono (by linarith)

theorem linspace_grid (mu sigma : ℝ) : linspace (mu - 6 * sigma) (mu + 6 * sigma) 1000 =
    (List.range 1000).map fun i : ℕ => mu - 6 * sigma + i * (12 * sigma / 999) := by
  unfold linspace
  refine List.map_congr_left fun i _ => ?_
  have : (((1000 : ℕ) : ℝ) - 1) = 999 := by norm_num
  rw [this]
  ring

set_option maxHeartbeats 800000 in
/-- The energies in floating point. -/
theorem grid_err (hA : StandardModel A u) (huv : u ≤ v) (hv : v ≤ 1 / 10 ^ 10) {mu sigma mu' sigma' : ℝ} (hmu : 0 < mu)
    (hs : 0 < sigma) (hs' : sigma ≤ mu / 10) (hq : v * mu ≤ sigma / 10 ^ 3) (hm : |mu' - mu| ≤ 4.5 * v * mu)
    (hsg : |sigma' - sigma| ≤ 11.3 * v * sigma) :
    ∃ e' : ℕ → ℝ, energyGridR A mu' sigma' = (List.range 1000).map e' ∧
      (∀ i < 1000, |e' i - (mu - 6 * sigma + i * (12 * sigma / 999))| ≤ 50 * v * mu) ∧
      ∀ i < 999, |(e' (i + 1) - e' i) - 12 * sigma / 999| ≤ 6.1 * v * mu := by
  have h0 := hA.u_nonneg
  have hv0 : 0 ≤ v := h0.trans huv
  have vm0 : 0 ≤ v * mu := mul_nonneg hv0 hmu.le
  have vs : v * sigma ≤ v * mu / 10 := by have := mul_le_mul_of_nonneg_left hs' hv0; linarith
  have vs0 : 0 ≤ v * sigma := mul_nonneg hv0 hs.le
  have vm1 : v * mu ≤ mu / 10 ^ 10 := by have := mul_le_mul_of_nonneg_right hv hmu.le; linarith
  -- 6 * sigma
  have a1 : |6 * sigma' - 6 * sigma| ≤ 67.8 * (v * sigma) := by
    rw [← mul_sub, abs_mul, abs_of_pos (by norm_num : (0 : ℝ) < 6)]; linarith
  have a2 := rd_err hA huv a1 (le_of_eq (abs_of_pos (by linarith : 0 < 6 * sigma))) (by
    have : v * sigma ≤ sigma / 10 ^ 10 := by have := mul_le_mul_of_nonneg_right hv hs.le; linarith
    linarith)
  have a3 : |A.rd (6 * sigma') - 6 * sigma| ≤ 7.4 * (v * mu) := a2.trans (by linarith)
  set w' := A.rd (6 * sigma')
  obtain ⟨b1, b2⟩ := abs_le.1 a3
  obtain ⟨m1, m2⟩ := abs_le.1 hm
  -- the ends
  have c1 : |(mu' - w') - (mu - 6 * sigma)| ≤ 11.9 * (v * mu) := by rw [abs_le]; constructor <;> linarith
  have c2 : |(mu' + w') - (mu + 6 * sigma)| ≤ 11.9 * (v * mu) := by rw [abs_le]; constructor <;> linarith
  have d1 := rd_err (M := 1.6 * mu) hA huv c1 (by rw [abs_le]; constructor <;> linarith) (by linarith)
  have d2 := rd_err (M := 1.6 * mu) hA huv c2 (by rw [abs_le]; constructor <;> linarith) (by linarith)
  set a := A.rd (mu' - w') with ha
  set b := A.rd (mu' + w') with hb
  obtain ⟨e1, e2⟩ := abs_le.1 d1
  obtain ⟨e3, e4⟩ := abs_le.1 d2
  -- the step
  have f1 : |(b - a) - 12 * sigma| ≤ 28 * (v * mu) := by rw [abs_le]; constructor <;> linarith
  have rnd : ∀ x M : ℝ, |x| ≤ M → |A.rd x - x| ≤ v * M := fun x M hx =>
    (hA.rel x).trans (mul_le_mul huv hx (abs_nonneg x) hv0)
  have f1a : |b - a| ≤ 1.21 * mu := by
    obtain ⟨_, _⟩ := abs_le.1 f1
    rw [abs_le]; constructor <;> linarith
  have f2 := rnd _ _ f1a
  set D := A.rd (b - a)
  obtain ⟨g1, g2⟩ := abs_le.1 f1
  obtain ⟨g3, g4⟩ := abs_le.1 f2
  have f3a : |D / 999| ≤ 1.22 * mu / 999 := by
    rw [abs_div, abs_of_pos (by norm_num : (0 : ℝ) < 999)]
    refine div_le_div_of_nonneg_right ?_ (by norm_num)
    obtain ⟨_, _⟩ := abs_le.1 f1a
    rw [abs_le]; constructor <;> linarith
  have f3 := rnd _ _ f3a
  set h := A.rd (D / 999)
  obtain ⟨g5, g6⟩ := abs_le.1 f3
  have hstep : |h - 12 * sigma / 999| ≤ 0.04 * (v * mu) := by rw [abs_le]; constructor <;> linarith
  have hstep2 : |999 * h - (b - a)| ≤ 2.5 * (v * mu) := by rw [abs_le]; constructor <;> linarith
  have hstep3 : |999 * h - 12 * sigma| ≤ 31 * (v * mu) := by rw [abs_le]; constructor <;> linarith
  obtain ⟨k3, k4⟩ := abs_le.1 hstep3
  -- the points
  set e' : ℕ → ℝ := fun i : ℕ => if i = 999 then b else A.rd (A.rd ((i : ℝ) * h) + a) with he'
  have pt : ∀ i < 1000, |e' i - (a + i * h)| ≤ 3 * (v * mu) := by
    intro i hi
    by_cases h9 : i = 999
    · have : e' i = b := by rw [he']; simp [h9]
      rw [this, h9]
      have : b - (a + ((999 : ℕ) : ℝ) * h) = -(999 * h - (b - a)) := by push_cast; ring
      rw [this, abs_neg]
      linarith
    · have hi' : i < 999 := by omega
      have : e' i = A.rd (A.rd ((i : ℝ) * h) + a) := by rw [he']; simp [h9]
      rw [this]
      have i0 : (0 : ℝ) ≤ i := Nat.cast_nonneg i
      have i1 : (i : ℝ) ≤ 999 := by exact_mod_cast hi'.le
      have hp : 0 ≤ h := by linarith
      have ih0 : 0 ≤ (i : ℝ) * h := mul_nonneg i0 hp
      have ih1 : (i : ℝ) * h ≤ 999 * h := mul_le_mul_of_nonneg_right i1 hp
      have ih : |(i : ℝ) * h| ≤ 1.21 * mu := by rw [abs_of_nonneg ih0]; linarith
      have r1 := rnd _ _ ih
      obtain ⟨_, _⟩ := abs_le.1 r1
      have r2 := rnd (A.rd ((i : ℝ) * h) + a) (1.7 * mu) (by rw [abs_le]; constructor <;> linarith)
      obtain ⟨_, _⟩ := abs_le.1 r2
      rw [abs_le]; constructor <;> linarith
  refine ⟨e', rfl, ?_, ?_⟩
  all_goals clear_value e'
  all_goals clear hstep2 f3 f3a f2 f1a f1 d1 d2 c1 c2 a1 a2 rnd
  · intro i hi
    obtain ⟨_, _⟩ := abs_le.1 (pt i hi)
    have i0 : (0 : ℝ) ≤ i := Nat.cast_nonneg i
    have i1 : (i : ℝ) ≤ 999 := by exact_mod_cast (by omega : i ≤ 999)
    have : |(i : ℝ) * h - i * (12 * sigma / 999)| ≤ 31 * (v * mu) := by
      rw [← mul_sub, abs_mul, abs_of_nonneg i0]
      have e : |h - 12 * sigma / 999| = |999 * h - 12 * sigma| / 999 := by
        rw [eq_div_iff (by norm_num), ← abs_of_pos (by norm_num : (0 : ℝ) < 999), ← abs_mul,
          abs_of_pos (by norm_num : (0 : ℝ) < 999)]
        congr 1
        ring
      rw [e]
      have := mul_le_mul i1 (div_le_div_of_nonneg_right hstep3 (by norm_num : (0 : ℝ) ≤ 999)) (by positivity) (by norm_num)
      linarith
    obtain ⟨_, _⟩ := abs_le.1 this
    rw [abs_le]; constructor <;> linarith
  · intro i hi
    obtain ⟨_, _⟩ := abs_le.1 (pt i (by omega))
    have p2 := pt (i + 1) (by omega)
    rw [Nat.cast_succ, add_mul, one_mul] at p2
    obtain ⟨_, _⟩ := abs_le.1 p2
    obtain ⟨_, _⟩ := abs_le.1 hstep
    rw [abs_le]; constructor <;> linarith
end
end
end TNS
