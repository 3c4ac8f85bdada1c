import Verif.Lemmas.XsCompare
/-
Where a Maxwell average rises and where it falls: for `F` log-convex, `β ^ (3 / 2) F β` is compared with its
values at the nodes of `Verif.Lemmas.XsNodes` (`β` is the inverse temperature).
-/

set_option autoImplicit false
set_option maxRecDepth 100000

namespace TNS
open Spec Set

/-- Between two nodes `a < b`, with the next node `c`: if `F` falls fast enough from `b` to `c`, the product
falls strictly on `[a, b]`. -/
theorem turn_fall {I : Set ℝ} {F : ℝ → ℝ} (hF0 : ∀ x ∈ I, 0 < F x)
    (hF : ConvexOn ℝ I (fun x => Real.log (F x))) {a b c h : ℝ} (ha0 : 0 < a) (ha : a ∈ I) (hc : c ∈ I)
    (hh : 0 < h) (hab : a < b) (hbc : c - b = h)
    (hs : Real.log (F c) - Real.log (F b) < -(3 / 2 * (h / a))) :
    StrictAntiOn (fun x => 3 / 2 * Real.log x + Real.log (F x)) (Icc a b) := by
  have hI : ∀ y, a ≤ y → y ≤ c → y ∈ I := fun y h1 h2 => hF.1.ordConnected.out ha hc ⟨h1, h2⟩
  intro x hx y hy hxy
  have hxI := hI x hx.1 (by linarith [hx.2])
  have hyI := hI y hy.1 (by linarith [hy.2])
  have hx0 : 0 < x := ha0.trans_le hx.1
  have hy0 : 0 < y := hx0.trans hxy
  -- the slope on [x, y] is at most the slope on [b, c]
  have s1 : (Real.log (F y) - Real.log (F x)) / (y - x) ≤ (Real.log (F c) - Real.log (F b)) / (c - b) := by
    have hbI := hI b hab.le (by linarith)
    have p1 : (Real.log (F y) - Real.log (F x)) / (y - x) ≤ (Real.log (F c) - Real.log (F x)) / (c - x) :=
      hF.secant_mono hxI hyI hc (by linarith) (by linarith [hx.2]) (by linarith [hy.2])
    have p2 := hF.secant_mono hc hxI hbI (by linarith [hx.2]) (by linarith) hx.2
    have e1 : (Real.log (F x) - Real.log (F c)) / (x - c) = (Real.log (F c) - Real.log (F x)) / (c - x) := by
      rw [← neg_sub, ← neg_sub c x, neg_div_neg_eq]
    have e2 : (Real.log (F b) - Real.log (F c)) / (b - c) = (Real.log (F c) - Real.log (F b)) / (c - b) := by
      rw [← neg_sub, ← neg_sub c b, neg_div_neg_eq]
    rw [e1, e2] at p2
    exact p1.trans p2
  rw [hbc, div_le_div_iff₀ (by linarith) hh] at s1
  have l1 : Real.log y - Real.log x ≤ (y - x) / a := by
    have := Real.log_le_sub_one_of_pos (div_pos hy0 hx0)
    rw [Real.log_div hy0.ne' hx0.ne'] at this
    have e : y / x - 1 = (y - x) / x := by field_simp
    rw [e] at this
    exact this.trans (div_le_div_of_nonneg_left (by linarith) ha0 hx.1)
  have l2 : Real.log (F y) - Real.log (F x) < -(3 / 2 * ((y - x) / a)) := by
    have h1 : (Real.log (F y) - Real.log (F x)) * h < -(3 / 2 * (h / a)) * (y - x) :=
      s1.trans_lt (mul_lt_mul_of_pos_right hs (by linarith))
    have e : -(3 / 2 * (h / a)) * (y - x) = -(3 / 2 * ((y - x) / a)) * h := by ring
    rw [e] at h1
    exact lt_of_mul_lt_mul_right h1 hh.le
  show 3 / 2 * Real.log y + Real.log (F y) < 3 / 2 * Real.log x + Real.log (F x)
  linarith

/-- Between two nodes `b < c`, with the previous node `a`: if `F` falls slowly enough from `a` to `b`, the
product rises strictly on `[b, c]`. -/
theorem turn_rise {I : Set ℝ} {F : ℝ → ℝ} (hF0 : ∀ x ∈ I, 0 < F x)
    (hF : ConvexOn ℝ I (fun x => Real.log (F x))) {a b c h : ℝ} (ha0 : 0 < a) (ha : a ∈ I) (hc : c ∈ I)
    (hh : 0 < h) (hab : b - a = h) (hbc : b < c)
    (hs : -(3 / 2 * (h / c)) < Real.log (F b) - Real.log (F a)) :
    StrictMonoOn (fun x => 3 / 2 * Real.log x + Real.log (F x)) (Icc b c) := by
  have hI : ∀ y, a ≤ y → y ≤ c → y ∈ I := fun y h1 h2 => hF.1.ordConnected.out ha hc ⟨h1, h2⟩
  intro x hx y hy hxy
  have hxI := hI x (by linarith [hx.1]) hx.2
  have hyI := hI y (by linarith [hy.1]) hy.2
  have hx0 : 0 < x := by linarith [hx.1]
  have hy0 : 0 < y := hx0.trans hxy
  have hc0 : 0 < c := by linarith
  have s1 : (Real.log (F b) - Real.log (F a)) / (b - a) ≤ (Real.log (F y) - Real.log (F x)) / (y - x) := by
    have hbI := hI b (by linarith) hbc.le
    have p1 := hF.secant_mono ha hbI hyI (by linarith) (by linarith [hx.1]) (by linarith [hx.1])
    have p2 := hF.secant_mono hyI ha hxI (by linarith [hx.1]) (by linarith) (by linarith [hx.1])
    have e1 : (Real.log (F a) - Real.log (F y)) / (a - y) = (Real.log (F y) - Real.log (F a)) / (y - a) := by
      rw [← neg_sub, ← neg_sub y a, neg_div_neg_eq]
    have e2 : (Real.log (F x) - Real.log (F y)) / (x - y) = (Real.log (F y) - Real.log (F x)) / (y - x) := by
      rw [← neg_sub, ← neg_sub y x, neg_div_neg_eq]
    rw [e1, e2] at p2
    exact p1.trans p2
  rw [hab, div_le_div_iff₀ hh (by linarith)] at s1
  have l1 : (y - x) / c ≤ Real.log y - Real.log x := by
    have := Real.log_le_sub_one_of_pos (div_pos hx0 hy0)
    rw [Real.log_div hx0.ne' hy0.ne'] at this
    have e : x / y - 1 = -((y - x) / y) := by field_simp; ring
    rw [e] at this
    have h2 : (y - x) / c ≤ (y - x) / y := div_le_div_of_nonneg_left (by linarith) hy0 hy.2
    linarith
  have l2 : -(3 / 2 * ((y - x) / c)) < Real.log (F y) - Real.log (F x) := by
    have h1 : -(3 / 2 * (h / c)) * (y - x) < (Real.log (F y) - Real.log (F x)) * h :=
      (mul_lt_mul_of_pos_right hs (by linarith)).trans_le s1
    have e : -(3 / 2 * (h / c)) * (y - x) = -(3 / 2 * ((y - x) / c)) * h := by ring
    rw [e] at h1
    exact lt_of_mul_lt_mul_right h1 hh.le
  show 3 / 2 * Real.log x + Real.log (F x) < 3 / 2 * Real.log y + Real.log (F y)
  linarith

/-! ### The checks at the nodes -/

/-- The product falls between node `m - 1` and node `m` (row `j`): `F` at node `m + 1` is below `F` at node `m`
by more than the factor `exp (3 / 2 / (62 + m))`, which is less than `1 + x + x ^ 2` for `x = 3 / 2 / (62 + m)`. -/
def fallOk (cOf : ℕ → ℕ) (acc : List (List ℕ)) (E m j : ℕ) : Bool :=
  let d := 2 * (62 + m)
  decide (10000201 * (cOf (get2 acc (m + 1) j) + E) * (d ^ 2 + 3 * d + 9) <
    10000000 * cOf (get2 acc m j) * d ^ 2)

/-- The product rises between node `m` and node `m + 1`: `F` at node `m` is above `F` at node `m - 1` divided
by `exp (3 / 2 / (64 + m))`, which is more than `1 + x`. -/
def riseOk (cOf : ℕ → ℕ) (acc : List (List ℕ)) (E m j : ℕ) : Bool :=
  let d := 2 * (64 + m)
  decide (10000201 * (cOf (get2 acc (m - 1) j) + E) * d < 10000000 * cOf (get2 acc m j) * (d + 3))

theorem exp_le_quad (x : ℝ) (h0 : 0 ≤ x) (h1 : x ≤ 1) : Real.exp x ≤ 1 + x + x ^ 2 := by
  have := Real.exp_bound' h0 h1 (n := 2) (by norm_num)
  simp only [Finset.sum_range_succ, Finset.sum_range_zero] at this
  norm_num at this
  nlinarith

theorem node_mem (i j : ℕ) (hi : i < 66) (hj : j < 9) :
    ((63 : ℝ) + i) * 2 ^ j / 6400 ∈ Icc (63 / 6400 : ℝ) (512 / 100) := by
  have e1 : (63 + i) * 2 ^ j ≤ 128 * 2 ^ 8 :=
    Nat.mul_le_mul (by omega) (Nat.pow_le_pow_right (by norm_num) (by omega))
  have e2 : 63 ≤ (63 + i) * 2 ^ j := le_trans (by omega) (Nat.le_mul_of_pos_right _ (by positivity))
  have f1 : ((63 : ℝ) + i) * 2 ^ j ≤ 128 * 2 ^ 8 := by exact_mod_cast e1
  have f2 : (63 : ℝ) ≤ ((63 : ℝ) + i) * 2 ^ j := by exact_mod_cast e2
  constructor
  · exact div_le_div_of_nonneg_right f2 (by norm_num)
  · rw [div_le_div_iff₀ (by norm_num) (by norm_num)]; linarith

private theorem fall_cast (A B E k : ℕ)
    (h : 10000201 * (B + E) * ((2 * (63 + k)) ^ 2 + 3 * (2 * (63 + k)) + 9) < 10000000 * A * (2 * (63 + k)) ^ 2) :
    (10000201 : ℝ) * ((B : ℝ) + (E : ℝ)) * ((2 * (63 + (k : ℝ))) ^ 2 + 3 * (2 * (63 + (k : ℝ))) + 9) <
      10000000 * (A : ℝ) * (2 * (63 + (k : ℝ))) ^ 2 := by
  exact_mod_cast h

private theorem rise_cast (A B E k : ℕ)
    (h : 10000201 * (B + E) * (2 * (65 + k)) < 10000000 * A * (2 * (65 + k) + 3)) :
    (10000201 : ℝ) * ((B : ℝ) + (E : ℝ)) * (2 * (65 + (k : ℝ))) <
      10000000 * (A : ℝ) * (2 * (65 + (k : ℝ)) + 3) := by
  exact_mod_cast h

private theorem castE : ((98304 * 2 ^ 100 : ℕ) : ℝ) = 98304 * 2 ^ 100 := by
  rw [Nat.cast_mul, Nat.cast_pow, Nat.cast_ofNat, Nat.cast_ofNat]

theorem fallOk_sound {cOf : ℕ → ℕ} {gl gh : List (List ℕ)} {F G : ℝ → ℝ} (d : NodeData cOf gl gh F G)
    (m j : ℕ) (hm1 : 1 ≤ m) (hm : m < 65) (hj : j < 9)
    (h : fallOk cOf Data.xsAcc5 (98304 * 2 ^ 100) m j = true) :
    StrictAntiOn (fun x => 3 / 2 * Real.log x + Real.log (F x))
      (Icc (((62 : ℝ) + m) * 2 ^ j / 6400) (((63 : ℝ) + m) * 2 ^ j / 6400)) := by
  simp only [fallOk, decide_eq_true_eq] at h
  obtain ⟨k, rfl⟩ : ∃ k, m = k + 1 := ⟨m - 1, by omega⟩
  have n1 := node_mem k j (by omega) hj
  have n2 := node_mem (k + 1) j (by omega) hj
  have n3 := node_mem (k + 1 + 1) j (by omega) hj
  have lo := d.F_lo (k + 1) j (by omega) hj
  have hi := d.F_hi (k + 1 + 1) j (by omega) hj
  have p2 := d.F_pos _ n2
  have p3 := d.F_pos _ n3
  generalize get2 Data.xsAcc5 (k + 1) j = A at *
  generalize get2 Data.xsAcc5 (k + 1 + 1) j = B at *
  have hP : (0 : ℝ) < 2 ^ j := by positivity
  have e0 : ((62 : ℝ) + (k + 1 : ℕ)) * 2 ^ j / 6400 = ((63 : ℝ) + k) * 2 ^ j / 6400 := by push_cast; ring
  rw [e0]
  refine turn_fall (I := Icc (63 / 6400 : ℝ) (512 / 100)) (h := 2 ^ j / 6400) d.F_pos d.F_convex
    (by positivity) n1 n3 (by positivity) ?_ ?_ ?_
  · push_cast
    rw [div_lt_div_iff_of_pos_right (by norm_num)]
    nlinarith
  · push_cast; ring
  · have e1 : (2 : ℝ) ^ j / 6400 / (((63 : ℝ) + k) * 2 ^ j / 6400) = 1 / (63 + k) := by
      field_simp
    rw [e1]
    set x : ℝ := 3 / 2 * (1 / (63 + k)) with hx
    have hk0 : (0 : ℝ) ≤ k := Nat.cast_nonneg k
    have hx0 : 0 ≤ x := by rw [hx]; positivity
    have hx1 : x ≤ 1 := by
      rw [hx, mul_one_div, div_le_one (by positivity)]; linarith
    set D : ℝ := 2 * (63 + k) with hD
    have hD0 : 0 < D := by rw [hD]; positivity
    have hxD : x = 3 / D := by rw [hx, hD]; field_simp
    have hq : (1 + x + x ^ 2) * D ^ 2 = D ^ 2 + 3 * D + 9 := by rw [hxD]; field_simp; ring
    have hc : (10000201 : ℝ) * ((cOf B : ℝ) + 98304 * 2 ^ 100) * (D ^ 2 + 3 * D + 9) <
        10000000 * (cOf A : ℝ) * D ^ 2 := by
      have h' : 10000201 * (cOf B + 98304 * 2 ^ 100) * ((2 * (63 + k)) ^ 2 + 3 * (2 * (63 + k)) + 9) <
          10000000 * cOf A * (2 * (63 + k)) ^ 2 := by
        have e : 62 + (k + 1) = 63 + k := by omega
        rw [e] at h; exact h
      have h'' := fall_cast _ _ _ _ h'
      rw [castE] at h''
      exact h''
    have key : F (((63 : ℝ) + (k + 1 + 1 : ℕ)) * 2 ^ j / 6400) * Real.exp x <
        F (((63 : ℝ) + (k + 1 : ℕ)) * 2 ^ j / 6400) := by
      generalize F (((63 : ℝ) + (k + 1 + 1 : ℕ)) * 2 ^ j / 6400) = f3 at *
      generalize F (((63 : ℝ) + (k + 1 : ℕ)) * 2 ^ j / 6400) = f2 at *
      have hexp := exp_le_quad x hx0 hx1
      refine (mul_le_mul_of_nonneg_left hexp p3.le).trans_lt ?_
      have hΘ : (0 : ℝ) < 2 * 10 ^ 52 * 2 ^ 96 := by norm_num
      generalize (2 : ℝ) * 10 ^ 52 * 2 ^ 96 = Θ at *
      have hD2 : 0 < D ^ 2 := by positivity
      have g1 : Θ * f3 * (D ^ 2 + 3 * D + 9) ≤
          1.0000201 * ((cOf B : ℝ) + 98304 * 2 ^ 100) * (D ^ 2 + 3 * D + 9) :=
        mul_le_mul_of_nonneg_right hi (by positivity)
      have g2 : (cOf A : ℝ) * D ^ 2 ≤ Θ * f2 * D ^ 2 := mul_le_mul_of_nonneg_right lo hD2.le
      have g3 : Θ * f3 * (D ^ 2 + 3 * D + 9) < Θ * f2 * D ^ 2 := by
        refine g1.trans_lt (lt_of_lt_of_le ?_ g2)
        norm_num at hc ⊢
        linarith
      rw [← hq] at g3
      have g4 : f3 * (1 + x + x ^ 2) * (Θ * D ^ 2) < f2 * (Θ * D ^ 2) := by linarith
      exact lt_of_mul_lt_mul_right g4 (by positivity)
    have := Real.log_lt_log (by positivity) key
    rw [Real.log_mul p3.ne' (Real.exp_ne_zero _), Real.log_exp] at this
    linarith

theorem riseOk_sound {cOf : ℕ → ℕ} {gl gh : List (List ℕ)} {F G : ℝ → ℝ} (d : NodeData cOf gl gh F G)
    (m j : ℕ) (hm1 : 1 ≤ m) (hm : m < 65) (hj : j < 9)
    (h : riseOk cOf Data.xsAcc5 (98304 * 2 ^ 100) m j = true) :
    StrictMonoOn (fun x => 3 / 2 * Real.log x + Real.log (F x))
      (Icc (((63 : ℝ) + m) * 2 ^ j / 6400) (((64 : ℝ) + m) * 2 ^ j / 6400)) := by
  simp only [riseOk, decide_eq_true_eq] at h
  obtain ⟨k, rfl⟩ : ∃ k, m = k + 1 := ⟨m - 1, by omega⟩
  rw [Nat.add_sub_cancel] at h
  have n1 := node_mem k j (by omega) hj
  have n2 := node_mem (k + 1) j (by omega) hj
  have n3 := node_mem (k + 1 + 1) j (by omega) hj
  have lo := d.F_lo (k + 1) j (by omega) hj
  have hi := d.F_hi k j (by omega) hj
  have p1 := d.F_pos _ n1
  have p2 := d.F_pos _ n2
  generalize get2 Data.xsAcc5 (k + 1) j = A at *
  generalize get2 Data.xsAcc5 k j = B at *
  have hP : (0 : ℝ) < 2 ^ j := by positivity
  have e0 : ((64 : ℝ) + (k + 1 : ℕ)) * 2 ^ j / 6400 = ((63 : ℝ) + (k + 1 + 1 : ℕ)) * 2 ^ j / 6400 := by
    push_cast; ring
  rw [e0]
  refine turn_rise (I := Icc (63 / 6400 : ℝ) (512 / 100)) (a := ((63 : ℝ) + k) * 2 ^ j / 6400)
    (h := 2 ^ j / 6400) d.F_pos d.F_convex (by positivity) n1 n3 (by positivity) ?_ ?_ ?_
  · push_cast; ring
  · push_cast
    rw [div_lt_div_iff_of_pos_right (by norm_num)]
    nlinarith
  · have e1 : (2 : ℝ) ^ j / 6400 / (((63 : ℝ) + (k + 1 + 1 : ℕ)) * 2 ^ j / 6400) = 1 / (65 + k) := by
      push_cast
      have : (0 : ℝ) < 63 + (k + 1 + 1) := by positivity
      field_simp
      ring
    rw [e1]
    set x : ℝ := 3 / 2 * (1 / (65 + k)) with hx
    have hk0 : (0 : ℝ) ≤ k := Nat.cast_nonneg k
    have hx0 : 0 ≤ x := by rw [hx]; positivity
    set D : ℝ := 2 * (65 + k) with hD
    have hD0 : 0 < D := by rw [hD]; positivity
    have hxD : x = 3 / D := by rw [hx, hD]; field_simp
    have hq : (1 + x) * D = D + 3 := by rw [hxD]; field_simp
    have hc : (10000201 : ℝ) * ((cOf B : ℝ) + 98304 * 2 ^ 100) * D < 10000000 * (cOf A : ℝ) * (D + 3) := by
      have h' : 10000201 * (cOf B + 98304 * 2 ^ 100) * (2 * (65 + k)) <
          10000000 * cOf A * (2 * (65 + k) + 3) := by
        have e : 64 + (k + 1) = 65 + k := by omega
        rw [e] at h; exact h
      have h'' := rise_cast _ _ _ _ h'
      rw [castE] at h''
      exact h''
    have key : F (((63 : ℝ) + k) * 2 ^ j / 6400) <
        F (((63 : ℝ) + (k + 1 : ℕ)) * 2 ^ j / 6400) * Real.exp x := by
      generalize F (((63 : ℝ) + k) * 2 ^ j / 6400) = f1 at *
      generalize F (((63 : ℝ) + (k + 1 : ℕ)) * 2 ^ j / 6400) = f2 at *
      have hexp : 1 + x ≤ Real.exp x := by linarith [Real.add_one_le_exp x]
      refine lt_of_lt_of_le ?_ (mul_le_mul_of_nonneg_left hexp p2.le)
      have hΘ : (0 : ℝ) < 2 * 10 ^ 52 * 2 ^ 96 := by norm_num
      generalize (2 : ℝ) * 10 ^ 52 * 2 ^ 96 = Θ at *
      have g1 : Θ * f1 * D ≤ 1.0000201 * ((cOf B : ℝ) + 98304 * 2 ^ 100) * D :=
        mul_le_mul_of_nonneg_right hi hD0.le
      have g2 : (cOf A : ℝ) * (D + 3) ≤ Θ * f2 * (D + 3) := mul_le_mul_of_nonneg_right lo (by positivity)
      have g3 : Θ * f1 * D < Θ * f2 * (D + 3) := by
        refine g1.trans_lt (lt_of_lt_of_le ?_ g2)
        norm_num at hc ⊢
        linarith
      rw [← hq] at g3
      have g4 : f1 * (Θ * D) < f2 * (1 + x) * (Θ * D) := by linarith
      exact lt_of_mul_lt_mul_right g4 (by positivity)
    have := Real.log_lt_log p1 key
    rw [Real.log_mul p2.ne' (Real.exp_ne_zero _), Real.log_exp] at this
    linarith

/-! ### Runs of nodes -/

theorem mono_glue {f : ℝ → ℝ} {a b c : ℝ} (h1 : StrictMonoOn f (Icc a b)) (h2 : StrictMonoOn f (Icc b c))
    (hab : a ≤ b) (hbc : b ≤ c) : StrictMonoOn f (Icc a c) := by
  intro x hx y hy hxy
  rcases le_total y b with hyb | hyb
  · exact h1 ⟨hx.1, hxy.le.trans hyb⟩ ⟨hy.1, hyb⟩ hxy
  rcases le_total b x with hbx | hbx
  · exact h2 ⟨hbx, hx.2⟩ ⟨hyb, hy.2⟩ hxy
  · have l1 := h1.monotoneOn ⟨hx.1, hbx⟩ ⟨hab, le_rfl⟩ hbx
    have l2 := h2.monotoneOn ⟨le_rfl, hbc⟩ ⟨hyb, hy.2⟩ hyb
    rcases lt_or_eq_of_le hbx with e | rfl
    · exact (h1 ⟨hx.1, hbx⟩ ⟨hab, le_rfl⟩ e).trans_le l2
    · exact h2 ⟨le_rfl, hbc⟩ ⟨hyb, hy.2⟩ hxy

theorem anti_glue {f : ℝ → ℝ} {a b c : ℝ} (h1 : StrictAntiOn f (Icc a b)) (h2 : StrictAntiOn f (Icc b c))
    (hab : a ≤ b) (hbc : b ≤ c) : StrictAntiOn f (Icc a c) := by
  have := mono_glue (f := fun x => -f x) (fun x hx y hy h => neg_lt_neg (h1 hx hy h))
    (fun x hx y hy h => neg_lt_neg (h2 hx hy h)) hab hbc
  exact fun x hx y hy h => neg_lt_neg_iff.1 (this hx hy h)

/-- Nodes `m0` to `m0 + n` of row `j`. -/
def fallsOk (cOf : ℕ → ℕ) (acc : List (List ℕ)) (E m0 n j : ℕ) : Bool :=
  (List.range (n + 1)).all fun i => fallOk cOf acc E (m0 + i) j

def risesOk (cOf : ℕ → ℕ) (acc : List (List ℕ)) (E m0 n j : ℕ) : Bool :=
  (List.range (n + 1)).all fun i => riseOk cOf acc E (m0 + i) j

theorem fallsOk_sound {cOf : ℕ → ℕ} {gl gh : List (List ℕ)} {F G : ℝ → ℝ} (d : NodeData cOf gl gh F G)
    (m0 n j : ℕ) (hm1 : 1 ≤ m0) (hm : m0 + n < 65) (hj : j < 9)
    (h : fallsOk cOf Data.xsAcc5 (98304 * 2 ^ 100) m0 n j = true) :
    StrictAntiOn (fun x => 3 / 2 * Real.log x + Real.log (F x))
      (Icc (((62 : ℝ) + m0) * 2 ^ j / 6400) (((63 : ℝ) + m0 + n) * 2 ^ j / 6400)) := by
  unfold fallsOk at h
  rw [List.all_eq_true] at h
  have hP : (0 : ℝ) < 2 ^ j := by positivity
  have key : ∀ k : ℕ, k ≤ n → StrictAntiOn (fun x => 3 / 2 * Real.log x + Real.log (F x))
      (Icc (((62 : ℝ) + m0) * 2 ^ j / 6400) (((63 : ℝ) + m0 + k) * 2 ^ j / 6400)) := by
    intro k
    induction k with
    | zero =>
      intro _
      have := fallOk_sound d m0 j hm1 (by omega) hj (h 0 (by simp))
      simpa using this
    | succ k ih =>
      intro hk
      have h1 := ih (by omega)
      have h2 := fallOk_sound d (m0 + (k + 1)) j (by omega) (by omega) hj
        (h (k + 1) (List.mem_range.2 (by omega)))
      have e1 : ((62 : ℝ) + (m0 + (k + 1) : ℕ)) * 2 ^ j / 6400 = ((63 : ℝ) + m0 + k) * 2 ^ j / 6400 := by
        push_cast; ring
      have e2 : ((63 : ℝ) + (m0 + (k + 1) : ℕ)) * 2 ^ j / 6400 =
          ((63 : ℝ) + m0 + (k + 1 : ℕ)) * 2 ^ j / 6400 := by
        push_cast; ring
      rw [e1, e2] at h2
      refine anti_glue h1 h2 ?_ ?_ <;>
      · rw [div_le_div_iff_of_pos_right (by norm_num)]
        have hk0 : (0 : ℝ) ≤ k := Nat.cast_nonneg k
        push_cast
        nlinarith
  exact key n le_rfl

theorem risesOk_sound {cOf : ℕ → ℕ} {gl gh : List (List ℕ)} {F G : ℝ → ℝ} (d : NodeData cOf gl gh F G)
    (m0 n j : ℕ) (hm1 : 1 ≤ m0) (hm : m0 + n < 65) (hj : j < 9)
    (h : risesOk cOf Data.xsAcc5 (98304 * 2 ^ 100) m0 n j = true) :
    StrictMonoOn (fun x => 3 / 2 * Real.log x + Real.log (F x))
      (Icc (((63 : ℝ) + m0) * 2 ^ j / 6400) (((64 : ℝ) + m0 + n) * 2 ^ j / 6400)) := by
  unfold risesOk at h
  rw [List.all_eq_true] at h
  have hP : (0 : ℝ) < 2 ^ j := by positivity
  have key : ∀ k : ℕ, k ≤ n → StrictMonoOn (fun x => 3 / 2 * Real.log x + Real.log (F x))
      (Icc (((63 : ℝ) + m0) * 2 ^ j / 6400) (((64 : ℝ) + m0 + k) * 2 ^ j / 6400)) := by
    intro k
    induction k with
    | zero =>
      intro _
      have := riseOk_sound d m0 j hm1 (by omega) hj (h 0 (by simp))
      simpa using this
    | succ k ih =>
      intro hk
      have h1 := ih (by omega)
      have h2 := riseOk_sound d (m0 + (k + 1)) j (by omega) (by omega) hj
        (h (k + 1) (List.mem_range.2 (by omega)))
      have e1 : ((63 : ℝ) + (m0 + (k + 1) : ℕ)) * 2 ^ j / 6400 = ((64 : ℝ) + m0 + k) * 2 ^ j / 6400 := by
        push_cast; ring
      have e2 : ((64 : ℝ) + (m0 + (k + 1) : ℕ)) * 2 ^ j / 6400 =
          ((64 : ℝ) + m0 + (k + 1 : ℕ)) * 2 ^ j / 6400 := by
        push_cast; ring
      rw [e1, e2] at h2
      refine mono_glue h1 h2 ?_ ?_ <;>
      · rw [div_le_div_iff_of_pos_right (by norm_num)]
        have hk0 : (0 : ℝ) ≤ k := Nat.cast_nonneg k
        push_cast
        nlinarith
  exact key n le_rfl

/-! ### D-T -/

theorem fallsDT0 : fallsOk cDT Data.xsAcc5 (98304 * 2 ^ 100) 38 26 0 = true := by decide +kernel
theorem fallsDT1 : fallsOk cDT Data.xsAcc5 (98304 * 2 ^ 100) 1 63 1 = true := by decide +kernel
theorem fallsDT2 : fallsOk cDT Data.xsAcc5 (98304 * 2 ^ 100) 1 63 2 = true := by decide +kernel
theorem fallsDT3 : fallsOk cDT Data.xsAcc5 (98304 * 2 ^ 100) 1 63 3 = true := by decide +kernel
theorem risesDT0 : risesOk cDT Data.xsAcc5 (98304 * 2 ^ 100) 1 28 0 = true := by decide +kernel

/-- For D-T the product falls from `β = 1 / 64` to `1 / 7` and rises from `1 / 100` to `93 / 6400`
(temperatures in keV). -/
theorem turnDT {gl gh : List (List ℕ)} {F G : ℝ → ℝ} (d : NodeData cDT gl gh F G) :
    StrictAntiOn (fun x => 3 / 2 * Real.log x + Real.log (F x)) (Icc (1 / 64) (1 / 7)) ∧
    StrictMonoOn (fun x => 3 / 2 * Real.log x + Real.log (F x)) (Icc (1 / 100) (93 / 6400)) := by
  constructor
  · have a0 := fallsOk_sound d 38 26 0 (by norm_num) (by norm_num) (by norm_num) fallsDT0
    have a1 := fallsOk_sound d 1 63 1 (by norm_num) (by norm_num) (by norm_num) fallsDT1
    have a2 := fallsOk_sound d 1 63 2 (by norm_num) (by norm_num) (by norm_num) fallsDT2
    have a3 := fallsOk_sound d 1 63 3 (by norm_num) (by norm_num) (by norm_num) fallsDT3
    norm_num at a0 a1 a2 a3
    have b1 := anti_glue a0 (a1.mono (Icc_subset_Icc (by norm_num : (63 / 3200 : ℝ) ≤ 127 / 6400) le_rfl))
      (by norm_num) (by norm_num)
    have b2 := anti_glue b1 (a2.mono (Icc_subset_Icc (by norm_num : (63 / 1600 : ℝ) ≤ 127 / 3200) le_rfl))
      (by norm_num) (by norm_num)
    have b3 := anti_glue b2 (a3.mono (Icc_subset_Icc (by norm_num : (63 / 800 : ℝ) ≤ 127 / 1600) le_rfl))
      (by norm_num) (by norm_num)
    exact b3.mono (Icc_subset_Icc (by norm_num) (by norm_num))
  · have a0 := risesOk_sound d 1 28 0 (by norm_num) (by norm_num) (by norm_num) risesDT0
    norm_num at a0
    exact a0.mono (Icc_subset_Icc (by norm_num) (by norm_num))

end TNS
