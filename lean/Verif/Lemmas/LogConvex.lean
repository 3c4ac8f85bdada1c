import Mathlib.Analysis.Convex.SpecificFunctions.Basic
import Mathlib.Analysis.SpecialFunctions.Log.Basic
import Mathlib.Algebra.BigOperators.Field
import Mathlib.Tactic.Linarith
import Mathlib.Tactic.FieldSimp
import Mathlib.Tactic.Ring
import Mathlib.Tactic.Positivity
/-
Bounds between nodes: the logarithm of a positive combination of decaying exponentials is convex, so
it lies below its chords and above its extrapolated secants; for a concave function it is the reverse.
-/

set_option autoImplicit false

namespace TNS

/-- A positive combination of exponentials. -/
noncomputable def expSum (n : ℕ) (w E : ℕ → ℝ) (β : ℝ) : ℝ :=
  ∑ i ∈ Finset.range n, w i * Real.exp (-(E i * β))

theorem expSum_pos (n : ℕ) (hn : 0 < n) (w E : ℕ → ℝ) (hw : ∀ i, i < n → 0 < w i) (β : ℝ) :
    0 < expSum n w E β :=
  Finset.sum_pos (fun i hi => mul_pos (hw i (Finset.mem_range.1 hi)) (Real.exp_pos _))
    ⟨0, Finset.mem_range.2 hn⟩

theorem convexOn_log_expSum (n : ℕ) (hn : 0 < n) (w E : ℕ → ℝ) (hw : ∀ i, i < n → 0 < w i) :
    ConvexOn ℝ Set.univ (fun β => Real.log (expSum n w E β)) := by
  refine ⟨convex_univ, ?_⟩
  intro a _ b _ u v hu hv huv
  simp only [smul_eq_mul]
  have hA := expSum_pos n hn w E hw a
  have hB := expSum_pos n hn w E hw b
  set la := Real.log (expSum n w E a) with hla
  set lb := Real.log (expSum n w E b) with hlb
  rw [Real.log_le_iff_le_exp (expSum_pos n hn w E hw _)]
  have key : expSum n w E (u * a + v * b) * Real.exp (-(u * la + v * lb)) ≤ 1 := by
    have h1 : expSum n w E (u * a + v * b) * Real.exp (-(u * la + v * lb)) ≤
        ∑ i ∈ Finset.range n, (u * (w i * Real.exp (-(E i * a)) * Real.exp (-la)) +
          v * (w i * Real.exp (-(E i * b)) * Real.exp (-lb))) := by
      unfold expSum
      rw [Finset.sum_mul]
      refine Finset.sum_le_sum (fun i hi => ?_)
      have hc := convexOn_exp.2 (Set.mem_univ (-(E i * a) + -la)) (Set.mem_univ (-(E i * b) + -lb))
        hu hv huv
      simp only [smul_eq_mul, Real.exp_add] at hc
      have e : Real.exp (-(E i * (u * a + v * b))) * Real.exp (-(u * la + v * lb)) =
          Real.exp (u * (-(E i * a) + -la) + v * (-(E i * b) + -lb)) := by
        rw [← Real.exp_add]; congr 1; ring
      have hw' := (hw i (Finset.mem_range.1 hi)).le
      have := mul_le_mul_of_nonneg_left hc hw'
      rw [mul_assoc, e, Real.exp_add]
      linarith
    refine h1.trans (le_of_eq ?_)
    rw [Finset.sum_add_distrib, ← Finset.mul_sum, ← Finset.mul_sum, ← Finset.sum_mul,
      ← Finset.sum_mul]
    change u * (expSum n w E a * Real.exp (-la)) + v * (expSum n w E b * Real.exp (-lb)) = 1
    rw [Real.exp_neg, Real.exp_neg, hla, hlb, Real.exp_log hA, Real.exp_log hB,
      mul_inv_cancel₀ hA.ne', mul_inv_cancel₀ hB.ne']
    linarith
  rw [Real.exp_neg] at key
  have hp := Real.exp_pos (u * la + v * lb)
  rwa [mul_inv_le_iff₀ hp, one_mul] at key

/-- Above the secant extrapolated to the right. -/
theorem convex_extrapolate {I : Set ℝ} {L : ℝ → ℝ} (hL : ConvexOn ℝ I L) {a b x h : ℝ} (ha : a ∈ I)
    (hx : x ∈ I) (hh : 0 < h) (hab : b - a = h) (hbx : b ≤ x) :
    L b + (x - b) / h * (L b - L a) ≤ L x := by
  have hxa : 0 < x - a := by linarith
  have k1 : 0 ≤ (x - b) / (x - a) := div_nonneg (by linarith) hxa.le
  have k2 : 0 ≤ (b - a) / (x - a) := div_nonneg (by linarith) hxa.le
  have := hL.2 ha hx k1 k2 (by field_simp; ring)
  simp only [smul_eq_mul] at this
  have e : (x - b) / (x - a) * a + (b - a) / (x - a) * x = b := by field_simp; ring
  rw [e] at this
  have h2 := mul_le_mul_of_nonneg_left this hxa.le
  have e2 : (x - a) * ((x - b) / (x - a) * L a + (b - a) / (x - a) * L x) =
      (x - b) * L a + (b - a) * L x := by field_simp
  rw [e2] at h2
  have h3 : h * (L b + (x - b) / h * (L b - L a)) ≤ h * L x := by
    have : h * (L b + (x - b) / h * (L b - L a)) = h * L b + (x - b) * (L b - L a) := by field_simp
    rw [this, ← hab]
    nlinarith
  exact le_of_mul_le_mul_left h3 hh

theorem convex_chord {I : Set ℝ} {L : ℝ → ℝ} (hL : ConvexOn ℝ I L) {b c x h : ℝ} (hb : b ∈ I)
    (hc : c ∈ I) (hh : 0 < h) (hbc : c - b = h) (hbx : b ≤ x) (hxc : x ≤ c) :
    L x ≤ (1 - (x - b) / h) * L b + (x - b) / h * L c := by
  have k1 : 0 ≤ 1 - (x - b) / h := by rw [sub_nonneg, div_le_one hh]; linarith
  have k2 : 0 ≤ (x - b) / h := div_nonneg (by linarith) hh.le
  have := hL.2 hb hc k1 k2 (by ring)
  simp only [smul_eq_mul] at this
  have e : (1 - (x - b) / h) * b + (x - b) / h * c = x := by
    have : c = b + h := by linarith
    rw [this]; field_simp; ring
  rwa [e] at this

/-- Between two nodes `b`, `c` the product of a log-convex and a log-concave function is bounded by
values at `b`, `c` and the previous node `a`. -/
theorem product_between {I : Set ℝ} {F G : ℝ → ℝ} (hF0 : ∀ x ∈ I, 0 < F x) (hG0 : ∀ x ∈ I, 0 < G x)
    (hF : ConvexOn ℝ I (fun x => Real.log (F x))) (hG : ConcaveOn ℝ I (fun x => Real.log (G x)))
    {a b c x h lo hi : ℝ} (ha : a ∈ I) (hc : c ∈ I) (hh : 0 < h) (hab : b - a = h)
    (hbc : c - b = h) (hbx : b ≤ x) (hxc : x ≤ c) (hlo : 0 < lo)
    (u1 : F b * G b ≤ hi) (u2 : F c * G b ^ 2 ≤ hi * G a)
    (l1 : lo ≤ F b * G b) (l2 : lo * F a ≤ F b ^ 2 * G c) :
    lo ≤ F x * G x ∧ F x * G x ≤ hi := by
  have hIc : ∀ y, a ≤ y → y ≤ c → y ∈ I := fun y h1 h2 =>
    hF.1.ordConnected.out ha hc ⟨h1, h2⟩
  have hb : b ∈ I := hIc b (by linarith) (by linarith)
  have hx : x ∈ I := hIc x (by linarith) hxc
  have hGn : ConvexOn ℝ I (fun x => -Real.log (G x)) := hG.neg
  have s0 : 0 ≤ (x - b) / h := div_nonneg (by linarith) hh.le
  have s1 : (x - b) / h ≤ 1 := by rw [div_le_one hh]; linarith
  have c1 := convex_chord hF hb hc hh hbc hbx hxc
  have c2 := convex_extrapolate hF ha hx hh hab hbx
  have c3 := convex_chord hGn hb hc hh hbc hbx hxc
  have c4 := convex_extrapolate hGn ha hx hh hab hbx
  have fa := hF0 a ha; have fb := hF0 b hb; have fc := hF0 c hc; have fx := hF0 x hx
  have ga := hG0 a ha; have gb := hG0 b hb; have gc := hG0 c hc; have gx := hG0 x hx
  have hhi : 0 < hi := lt_of_lt_of_le (mul_pos fb gb) u1
  have U1 := Real.log_le_log (mul_pos fb gb) u1
  have U2 := Real.log_le_log (by positivity) u2
  have L1 := Real.log_le_log hlo l1
  have L2 := Real.log_le_log (by positivity) l2
  rw [Real.log_mul fb.ne' gb.ne'] at U1 L1
  rw [Real.log_mul fc.ne' (by positivity), Real.log_pow, Real.log_mul hhi.ne' ga.ne'] at U2
  rw [Real.log_mul hlo.ne' fa.ne', Real.log_mul (by positivity) gc.ne', Real.log_pow] at L2
  push_cast at U2 L2
  generalize (x - b) / h = s at *
  have hxl : Real.log (F x * G x) = Real.log (F x) + Real.log (G x) := Real.log_mul fx.ne' gx.ne'
  constructor
  · rw [← Real.log_le_log_iff hlo (mul_pos fx gx), hxl]
    have p1 := mul_le_mul_of_nonneg_left L1 (sub_nonneg.2 s1)
    have p2 := mul_le_mul_of_nonneg_left L2 s0
    nlinarith
  · rw [← Real.log_le_log_iff (mul_pos fx gx) hhi, hxl]
    have p1 := mul_le_mul_of_nonneg_left U1 (sub_nonneg.2 s1)
    have p2 := mul_le_mul_of_nonneg_left U2 s0
    nlinarith

end TNS
