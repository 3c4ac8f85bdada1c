import Verif.Lemmas.XsCertified
import Verif.Lemmas.LogConvex
import Verif.Lemmas.XsSum0
import Verif.Lemmas.XsSum1
import Verif.Lemmas.XsSum2
import Verif.Lemmas.XsSum3
import Verif.Lemmas.XsSum4
/-
The sums of the Maxwell average at the nodes `β = (63 + m) 2^j / 6400` per keV, with error bounds.
-/

set_option autoImplicit false
set_option maxRecDepth 100000

namespace TNS
open Spec

theorem xsZero_shape : Shape xsZero := by
  refine ⟨by decide +kernel, fun r hr => ?_⟩
  rw [List.eq_of_mem_replicate hr]; rfl

theorem xsZero_get (m j : ℕ) (hm : m < 66) (hj : j < 9) : get2 xsZero m j = 0 := by
  have : ∀ m < 66, ∀ j < 9, get2 xsZero m j = 0 := by decide +kernel
  exact this m hm j hj

theorem xsAcc_eq : rows (2 ^ 96) xsAll xsZero = Data.xsAcc5 := by
  have e : (2 : ℕ) ^ 96 = 79228162514264337593543950336 := by norm_num
  unfold xsAll
  rw [e, rows_append, rows_append, rows_append, rows_append, beqLL_eq _ _ xsSum0,
    beqLL_eq _ _ xsSum1, beqLL_eq _ _ xsSum2, beqLL_eq _ _ xsSum3, beqLL_eq _ _ xsSum4]

theorem xsAcc_get (m j : ℕ) (hm : m < 66) (hj : j < 9) :
    get2 Data.xsAcc5 m j = (xsAll.map fun p => nodePow (2 ^ 96) p.2.1 m j * p.2.2).sum := by
  rw [← xsAcc_eq, (rows_get (2 ^ 96) xsAll xsZero xsZero_shape).2 m j hm hj, xsZero_get m j hm hj,
    zero_add]

/-- Sums over rows compared with sums over indices. -/
theorem list_sum_bounds {α : Type} (l : List α) (f : α → ℝ) (lo hi : ℕ → ℝ) (i : ℕ)
    (h : ∀ k p, l[k]? = some p → lo (i + k) ≤ f p ∧ f p ≤ hi (i + k)) :
    ∑ k ∈ Finset.range l.length, lo (i + k) ≤ (l.map f).sum ∧
      (l.map f).sum ≤ ∑ k ∈ Finset.range l.length, hi (i + k) := by
  induction l generalizing i with
  | nil => simp
  | cons a l ih =>
    have h0 := h 0 a (by simp)
    obtain ⟨i1, i2⟩ := ih (i + 1) (fun k p hk => by
      have := h (k + 1) p (by simpa using hk)
      rwa [show i + (k + 1) = i + 1 + k by omega] at this)
    have e : ∀ g : ℕ → ℝ, ∑ k ∈ Finset.range (a :: l).length, g (i + k) =
        ∑ k ∈ Finset.range l.length, g (i + 1 + k) + g (i + 0) := by
      intro g
      rw [List.length_cons, Finset.sum_range_succ']
      congr 1
      exact Finset.sum_congr rfl (fun k _ => by rw [show i + (k + 1) = i + 1 + k by omega])
    rw [e, e, List.map_cons, List.sum_cons]
    constructor <;> linarith [h0.1, h0.2]

theorem xsAll_row (k : ℕ) (p : ℕ × ℕ × ℕ) (hk : xsAll[k]? = some p) :
    GB k p.1 ∧ Apx (2 ^ 96) p.2.1 2 (Real.exp (-(((p.1 + 1 : ℕ) : ℝ) / 6400000000000))) := by
  have := gqCheck_sound 0 xsAll xsAll_gq k p hk
  rwa [zero_add] at this

/-- The power at a node and the exponential. -/
theorem node_exp (k : ℕ) (p : ℕ × ℕ × ℕ) (hk : xsAll[k]? = some p) (m j : ℕ) (hm : m < 66)
    (hj : j < 9) :
    (nodePow (2 ^ 96) p.2.1 m j : ℝ) ≤
      2 ^ 96 * Real.exp (-(logEnergy k * ((63 + m) * 2 ^ j / 6400))) ∧
    2 ^ 96 * Real.exp (-(logEnergy k * ((63 + m) * 2 ^ j / 6400))) ≤
      1.00000001 * (nodePow (2 ^ 96) p.2.1 m j + 98304) := by
  obtain ⟨hg, hq⟩ := xsAll_row k p hk
  have h := nodePow_apx (by positivity) (Real.exp_pos _).le (Real.exp_le_one_iff.2 (by
    rw [neg_nonpos]; positivity)) hq m j
  rw [← Real.exp_nat_mul] at h
  set n : ℕ := (63 + m) * 2 ^ j with hn
  have hn2 : n ≤ 32768 := by
    calc n ≤ 128 * 2 ^ 8 := Nat.mul_le_mul (by omega) (Nat.pow_le_pow_right (by norm_num) (by omega))
      _ = 32768 := by norm_num
  have hnr : ((63 : ℝ) + m) * 2 ^ j = n := by rw [hn]; push_cast; ring
  rw [hnr]
  set β : ℝ := (n : ℝ) / 6400 with hβ
  have hβ0 : 0 ≤ β := by positivity
  have hβ5 : β ≤ 5.12 := by
    rw [hβ, div_le_iff₀ (by norm_num)]
    have : (n : ℝ) ≤ 32768 := by exact_mod_cast hn2
    norm_num; linarith
  have ex : (n : ℝ) * -(((p.1 + 1 : ℕ) : ℝ) / 6400000000000) = -((p.1 + 1) / 10 ^ 9 * β) := by
    rw [hβ]; push_cast; ring
  rw [ex] at h
  have lo := h.lo
  have hi := h.hi
  simp only [Nat.cast_pow, Nat.cast_ofNat] at lo hi
  have hE1 : logEnergy k ≤ (p.1 + 1) / 10 ^ 9 := by rw [le_div_iff₀ (by norm_num)]; linarith [hg.2]
  have hE2 : (p.1 + 1) / 10 ^ 9 ≤ logEnergy k + 1 / 10 ^ 9 := by
    have := hg.1
    rw [div_le_iff₀ (by norm_num)]; linarith
  set a := nodePow (2 ^ 96) p.2.1 m j with ha
  have hK : ((3 * n : ℕ) : ℝ) ≤ 98304 := by
    have : 3 * n ≤ 98304 := by omega
    exact_mod_cast this
  have hA : (0 : ℝ) ≤ 2 ^ 96 := by positivity
  have m1 : Real.exp (-((p.1 + 1) / 10 ^ 9 * β)) ≤ Real.exp (-(logEnergy k * β)) :=
    Real.exp_le_exp.2 (neg_le_neg (mul_le_mul_of_nonneg_right hE1 hβ0))
  have m2 : Real.exp (-(logEnergy k * β)) ≤ 1.00000001 * Real.exp (-((p.1 + 1) / 10 ^ 9 * β)) := by
    have h1 : Real.exp (-(logEnergy k * β)) ≤ Real.exp (β / 10 ^ 9 + -((p.1 + 1) / 10 ^ 9 * β)) := by
      apply Real.exp_le_exp.2
      have := mul_le_mul_of_nonneg_right hE2 hβ0
      linarith
    rw [Real.exp_add] at h1
    refine h1.trans (mul_le_mul_of_nonneg_right ?_ (Real.exp_pos _).le)
    have h2 : Real.exp (β / 10 ^ 9) ≤ 1 / (1 - β / 10 ^ 9) :=
      Real.exp_bound_div_one_sub_of_interval (by positivity) (by
        rw [div_lt_one (by norm_num)]; linarith) 
    refine h2.trans ?_
    rw [div_le_iff₀ (by have : β / 10 ^ 9 ≤ 5.12 / 10 ^ 9 := by gcongr
                        norm_num at this ⊢; linarith)]
    have : β / 10 ^ 9 ≤ 5.12 / 10 ^ 9 := by gcongr
    norm_num at this ⊢
    linarith
  generalize Real.exp (-((p.1 + 1) / 10 ^ 9 * β)) = x at *
  generalize Real.exp (-(logEnergy k * β)) = y at *
  generalize (2 : ℝ) ^ 96 = A at *
  constructor
  · exact lo.trans (mul_le_mul_of_nonneg_left m1 hA)
  · have := mul_le_mul_of_nonneg_left m2 hA
    have h3 : A * x ≤ a + 98304 := by linarith
    calc A * y ≤ A * (1.00000001 * x) := this
      _ = 1.00000001 * (A * x) := by ring
      _ ≤ _ := mul_le_mul_of_nonneg_left h3 (by norm_num)

/-- Bounds for the sum of a reaction at a node. -/
theorem node_sum (cOf : ℕ → ℕ) (w : ℕ → ℝ) (hw0 : ∀ k p, xsAll[k]? = some p → (cOf p.2.2 : ℝ) ≤ 2 * 10 ^ 52 * w k)
    (hw1 : ∀ k p, xsAll[k]? = some p → 2 * 10 ^ 52 * w k ≤ 1.00002 * cOf p.2.2)
    (m j : ℕ) (hm : m < 66) (hj : j < 9) :
    (((xsAll.map fun p => nodePow (2 ^ 96) p.2.1 m j * cOf p.2.2).sum : ℕ) : ℝ) ≤
      2 * 10 ^ 52 * 2 ^ 96 * expSum 1000 w logEnergy ((63 + m) * 2 ^ j / 6400) ∧
    2 * 10 ^ 52 * 2 ^ 96 * expSum 1000 w logEnergy ((63 + m) * 2 ^ j / 6400) ≤
      1.0000201 * (((xsAll.map fun p => nodePow (2 ^ 96) p.2.1 m j * cOf p.2.2).sum : ℕ) +
        98304 * ((xsAll.map fun p => cOf p.2.2).sum : ℕ)) := by
  set β : ℝ := (63 + m) * 2 ^ j / 6400 with hβ
  have hA : (0 : ℝ) < 2 ^ 96 := by positivity
  have e1 : ∀ f : ℕ × ℕ × ℕ → ℕ, (((xsAll.map f).sum : ℕ) : ℝ) = (xsAll.map (fun p => (f p : ℝ))).sum := by
    intro f
    rw [Nat.cast_list_sum, List.map_map]; rfl
  have es : 2 * 10 ^ 52 * 2 ^ 96 * expSum 1000 w logEnergy β =
      ∑ k ∈ Finset.range xsAll.length, 2 * 10 ^ 52 * w (0 + k) * (2 ^ 96 * Real.exp (-(logEnergy (0 + k) * β))) := by
    unfold expSum
    rw [xsAll_length, Finset.mul_sum]
    refine Finset.sum_congr rfl (fun k _ => ?_)
    rw [zero_add]; ring
  have key := list_sum_bounds xsAll
    (fun p => ((nodePow (2 ^ 96) p.2.1 m j * cOf p.2.2 : ℕ) : ℝ)) 
    (fun k => 2 * 10 ^ 52 * w k * (2 ^ 96 * Real.exp (-(logEnergy k * β))) * 0)
    (fun k => 2 * 10 ^ 52 * w k * (2 ^ 96 * Real.exp (-(logEnergy k * β)))) 0 (by
      intro k p hk
      obtain ⟨n1, n2⟩ := node_exp k p hk m j hm hj
      rw [zero_add]
      have c0 := hw0 k p hk
      refine ⟨by rw [mul_zero]; exact Nat.cast_nonneg _, ?_⟩
      rw [Nat.cast_mul, mul_comm]
      exact mul_le_mul c0 n1 (Nat.cast_nonneg _) ((Nat.cast_nonneg _).trans c0))
  have key2 := list_sum_bounds xsAll
    (fun p => 1.0000201 * (((nodePow (2 ^ 96) p.2.1 m j * cOf p.2.2 : ℕ) : ℝ) + 98304 * (cOf p.2.2 : ℕ)))
    (fun k => 2 * 10 ^ 52 * w k * (2 ^ 96 * Real.exp (-(logEnergy k * β))))
    (fun k => 1.0000201 * 1.0000201 * (2 * 10 ^ 52 * w k * (2 ^ 96 * Real.exp (-(logEnergy k * β))) + 98304 * (2 * 10 ^ 52 * w k))) 0 (by
      intro k p hk
      obtain ⟨n1, n2⟩ := node_exp k p hk m j hm hj
      rw [zero_add]
      have c0 := hw0 k p hk
      have c1 := hw1 k p hk
      have cn : (0 : ℝ) ≤ cOf p.2.2 := Nat.cast_nonneg _
      have an : (0 : ℝ) ≤ nodePow (2 ^ 96) p.2.1 m j := Nat.cast_nonneg _
      have w0 : 0 ≤ 2 * 10 ^ 52 * w k := cn.trans c0
      generalize 2 * 10 ^ 52 * w k = W at *
      generalize (2 : ℝ) ^ 96 * Real.exp (-(logEnergy k * β)) = X at *
      rw [Nat.cast_mul]
      have x0 : 0 ≤ X := an.trans n1
      generalize (nodePow (2 ^ 96) p.2.1 m j : ℝ) = a at *
      generalize (cOf p.2.2 : ℝ) = c at *
      have ac : 0 ≤ (a + 98304) * c := by positivity
      constructor
      · have := mul_le_mul c1 n2 x0 (by positivity)
        norm_num at this ⊢
        nlinarith
      · have := mul_le_mul n1 c0 cn x0
        have : a * c ≤ W * X := by linarith
        have h98 : 98304 * c ≤ 98304 * W := by linarith
        have : a * c + 98304 * c ≤ W * X + 98304 * W := by linarith
        have hp : 0 ≤ W * X + 98304 * W := by positivity
        norm_num
        nlinarith)
  rw [es]
  constructor
  · rw [e1]; exact key.2
  · refine key2.1.trans (le_of_eq ?_)
    rw [e1, e1, ← List.sum_map_mul_left, ← List.sum_map_add, ← List.sum_map_mul_left]

theorem nodePow_le (k : ℕ) (p : ℕ × ℕ × ℕ) (hk : xsAll[k]? = some p) (m j : ℕ) (hm : m < 66)
    (hj : j < 9) : nodePow (2 ^ 96) p.2.1 m j ≤ 2 ^ 96 := by
  have h := (node_exp k p hk m j hm hj).1
  have : Real.exp (-(logEnergy k * ((63 + m) * 2 ^ j / 6400))) ≤ 1 := by
    rw [Real.exp_le_one_iff, neg_nonpos]
    have := (logEnergy_pos k).le
    positivity
  have h2 : (nodePow (2 ^ 96) p.2.1 m j : ℝ) ≤ 2 ^ 96 :=
    h.trans (mul_le_of_le_one_right (by positivity) this)
  exact_mod_cast h2

theorem weight_sums : (xsAll.map fun p => cDT p.2.2).sum ≤ 2 ^ 100 ∧
    (xsAll.map fun p => cDDn p.2.2).sum ≤ 2 ^ 100 ∧ (xsAll.map fun p => cDDp p.2.2).sum ≤ 2 ^ 100 := by
  decide +kernel

/-- Reading off the sum of one reaction from the packed sum. -/
theorem unpack_sum (m j : ℕ) (hm : m < 66) (hj : j < 9) :
    cDT (get2 Data.xsAcc5 m j) = (xsAll.map fun p => nodePow (2 ^ 96) p.2.1 m j * cDT p.2.2).sum ∧
    cDDn (get2 Data.xsAcc5 m j) = (xsAll.map fun p => nodePow (2 ^ 96) p.2.1 m j * cDDn p.2.2).sum ∧
    cDDp (get2 Data.xsAcc5 m j) = (xsAll.map fun p => nodePow (2 ^ 96) p.2.1 m j * cDDp p.2.2).sum := by
  have hb : ∀ (cOf : ℕ → ℕ), (xsAll.map fun p => cOf p.2.2).sum ≤ 2 ^ 100 →
      (xsAll.map fun p => nodePow (2 ^ 96) p.2.1 m j * cOf p.2.2).sum < pack := by
    intro cOf h
    have h1 : (xsAll.map fun p => nodePow (2 ^ 96) p.2.1 m j * cOf p.2.2).sum ≤
        (xsAll.map fun p => 2 ^ 96 * cOf p.2.2).sum := by
      refine List.sum_le_sum (fun p hp => ?_)
      obtain ⟨k, hk⟩ := List.mem_iff_getElem?.1 hp
      exact Nat.mul_le_mul_right _ (nodePow_le k p hk m j hm hj)
    rw [List.sum_map_mul_left] at h1
    refine lt_of_le_of_lt (h1.trans (Nat.mul_le_mul_left _ h)) ?_
    unfold pack; norm_num
  obtain ⟨b0, b1, b2⟩ := weight_sums
  have b0 := hb cDT b0
  have b1 := hb cDDn b1
  have e : get2 Data.xsAcc5 m j = (xsAll.map fun p => nodePow (2 ^ 96) p.2.1 m j * cDT p.2.2).sum +
      pack * ((xsAll.map fun p => nodePow (2 ^ 96) p.2.1 m j * cDDn p.2.2).sum +
      pack * (xsAll.map fun p => nodePow (2 ^ 96) p.2.1 m j * cDDp p.2.2).sum) := by
    rw [xsAcc_get m j hm hj, ← List.sum_map_mul_left, ← List.sum_map_add, ← List.sum_map_mul_left,
      ← List.sum_map_add]
    refine congrArg List.sum (List.map_congr_left (fun p _ => ?_))
    have e1 : p.2.2 = cDT p.2.2 + pack * (cDDn p.2.2 + pack * cDDp p.2.2) := by
      unfold cDT cDDn cDDp
      have a := Nat.mod_add_div (p.2.2 / pack) pack
      have b := Nat.mod_add_div p.2.2 pack
      rw [a, b]
    conv_lhs => rw [e1]
    ring
  generalize (xsAll.map fun p => nodePow (2 ^ 96) p.2.1 m j * cDT p.2.2).sum = s0 at *
  generalize (xsAll.map fun p => nodePow (2 ^ 96) p.2.1 m j * cDDn p.2.2).sum = s1 at *
  generalize (xsAll.map fun p => nodePow (2 ^ 96) p.2.1 m j * cDDp p.2.2).sum = s2 at *
  have hp : 0 < pack := by unfold pack; positivity
  rw [e]
  unfold cDT cDDn cDDp
  generalize pack = P at *
  have d1 : (s0 + P * (s1 + P * s2)) / P = s1 + P * s2 := by
    rw [Nat.add_mul_div_left _ _ hp, Nat.div_eq_of_lt b0, zero_add]
  refine ⟨?_, ?_, ?_⟩
  · rw [Nat.add_mul_mod_self_left, Nat.mod_eq_of_lt b0]
  · rw [d1, Nat.add_mul_mod_self_left, Nat.mod_eq_of_lt b1]
  · rw [d1, Nat.add_mul_div_left _ _ hp, Nat.div_eq_of_lt b1, zero_add]

end TNS
