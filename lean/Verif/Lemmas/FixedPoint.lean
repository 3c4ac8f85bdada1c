import Mathlib.Analysis.SpecialFunctions.Exp
import Mathlib.Tactic.Linarith
import Mathlib.Tactic.Ring
import Mathlib.Tactic.Positivity
import Mathlib.Tactic.FieldSimp
import Mathlib.Algebra.Order.Field.Basic
/-
Powers and exponentials in fixed point arithmetic on natural numbers, with error bounds, in a form
that Lean's kernel evaluates quickly.
-/

set_option autoImplicit false

namespace TNS

/-- `a / S` approximates `α` from below, with an error of at most `k / S`. -/
structure Apx (S a k : ℕ) (α : ℝ) : Prop where
  lo : (a : ℝ) ≤ S * α
  hi : S * α ≤ a + k

theorem Apx.mono {S a k l : ℕ} {α : ℝ} (h : Apx S a k α) (hkl : k ≤ l) : Apx S a l α :=
  ⟨h.lo, h.hi.trans (by have : (k : ℝ) ≤ l := by exact_mod_cast hkl
                        linarith)⟩

theorem Apx.mul {S a b k l : ℕ} {α β : ℝ} (hS : 0 < S) (ha : Apx S a k α) (hb : Apx S b l β)
    (ha0 : 0 ≤ α) (ha1 : α ≤ 1) (hb0 : 0 ≤ β) (hb1 : β ≤ 1) :
    Apx S (a * b / S) (k + l + 1) (α * β) := by
  have hS' : (0 : ℝ) < S := by exact_mod_cast hS
  have hdiv := Nat.div_add_mod (a * b) S
  have hmod := Nat.mod_lt (a * b) hS
  have e : (S : ℝ) * ((a * b / S : ℕ) : ℝ) + ((a * b % S : ℕ) : ℝ) = a * b := by exact_mod_cast hdiv
  have hm : ((a * b % S : ℕ) : ℝ) ≤ S := by exact_mod_cast hmod.le
  have hm0 : (0 : ℝ) ≤ ((a * b % S : ℕ) : ℝ) := Nat.cast_nonneg _
  have a0 : (0 : ℝ) ≤ a := Nat.cast_nonneg _
  have b0 : (0 : ℝ) ≤ b := Nat.cast_nonneg _
  constructor
  · have h1 : (S : ℝ) * ((a * b / S : ℕ) : ℝ) ≤ S * (S * (α * β)) := by
      calc (S : ℝ) * ((a * b / S : ℕ) : ℝ) ≤ a * b := by linarith
        _ ≤ (S * α) * (S * β) := mul_le_mul ha.lo hb.lo b0 (by positivity)
        _ = _ := by ring
    exact le_of_mul_le_mul_left h1 hS'
  · have haS : (a : ℝ) ≤ S := ha.lo.trans (mul_le_of_le_one_right hS'.le ha1)
    have h1 : (S : ℝ) * (S * (α * β)) ≤ S * (((a * b / S : ℕ) : ℝ) + ((k + l + 1 : ℕ) : ℝ)) := by
      calc (S : ℝ) * (S * (α * β)) = (S * α) * (S * β) := by ring
        _ ≤ (a + k) * (S * β) := mul_le_mul_of_nonneg_right ha.hi (by positivity)
        _ = a * (S * β) + k * (S * β) := by ring
        _ ≤ a * (b + l) + k * S := by
          refine add_le_add (mul_le_mul_of_nonneg_left hb.hi a0) ?_
          exact mul_le_mul_of_nonneg_left (mul_le_of_le_one_right hS'.le hb1) (Nat.cast_nonneg _)
        _ ≤ a * b + S * l + k * S := by
          have := mul_le_mul_of_nonneg_right haS (Nat.cast_nonneg l : (0 : ℝ) ≤ l)
          linarith
        _ ≤ _ := by push_cast at *; linarith
    exact le_of_mul_le_mul_left h1 hS'

/-- Evaluate `n` before going on. -/
def force {α : Type} (n : ℕ) (k : ℕ → α) : α := Nat.rec (k 0) (fun m _ => k (Nat.succ m)) n

@[simp] theorem force_eq {α : Type} (n : ℕ) (k : ℕ → α) : force n k = k n := by
  cases n <;> rfl

/-- `n` squarings. -/
noncomputable def sqs (S n : ℕ) : ℕ → ℕ :=
  Nat.rec (fun a => a) (fun _ ih a => force (Nat.div (Nat.mul a a) S) ih) n

@[simp] theorem sqs_zero (S a : ℕ) : sqs S 0 a = a := rfl
theorem sqs_succ (S n a : ℕ) : sqs S (n + 1) a = sqs S n (a * a / S) := by
  change force (Nat.div (Nat.mul a a) S) (sqs S n) = _
  rw [force_eq]; rfl

theorem sqs_apx {S a k : ℕ} {α : ℝ} (hS : 0 < S) (ha : Apx S a k α) (h0 : 0 ≤ α) (h1 : α ≤ 1)
    (n : ℕ) : Apx S (sqs S n a) (2 ^ n * (k + 1) - 1) (α ^ 2 ^ n) := by
  induction n generalizing a k α with
  | zero => simpa using ha
  | succ n ih =>
    rw [sqs_succ]
    have := ih (ha.mul hS ha h0 h1 h0 h1) (mul_nonneg h0 h0) (mul_le_one₀ h1 h0 h1)
    have e : α ^ 2 ^ (n + 1) = (α * α) ^ 2 ^ n := by
      rw [← pow_two, ← pow_mul, pow_succ]; congr 1; ring
    have e2 : 2 ^ (n + 1) * (k + 1) - 1 = 2 ^ n * (k + k + 1 + 1) - 1 := by
      congr 1; rw [pow_succ]; ring
    rw [e, e2]; exact this

/-- `(1 - y)^N` approximates `exp (-N y)`. -/
theorem exp_pow_bounds (y : ℝ) (N : ℕ) (h0 : 0 ≤ y) (h1 : y ≤ 1) :
    (1 - y) ^ N ≤ Real.exp (-(N * y)) ∧ Real.exp (-(N * y)) ≤ (1 - y) ^ N + N * y ^ 2 := by
  have he : Real.exp (-(N * y)) = Real.exp (-y) ^ N := by rw [← Real.exp_nat_mul]; congr 1; ring
  have hu : 1 - y ≤ Real.exp (-y) := by have := Real.add_one_le_exp (-y); linarith
  refine ⟨by rw [he]; exact pow_le_pow_left₀ (by linarith) hu N, ?_⟩
  have hy2 : y ^ 2 ≤ 1 := pow_le_one₀ h0 h1
  have hl : Real.exp (-y) * (1 - y ^ 2) ≤ 1 - y := by
    have h2 : 1 + y ≤ Real.exp y := by have := Real.add_one_le_exp y; linarith
    have h3 : Real.exp (-y) * (1 + y) ≤ 1 := by
      calc Real.exp (-y) * (1 + y) ≤ Real.exp (-y) * Real.exp y :=
            mul_le_mul_of_nonneg_left h2 (Real.exp_pos _).le
        _ = 1 := by rw [← Real.exp_add]; simp
    have := mul_le_mul_of_nonneg_right h3 (sub_nonneg.2 h1)
    nlinarith
  have hb : 1 - N * y ^ 2 ≤ (1 - y ^ 2) ^ N := by
    have := one_add_mul_le_pow (a := -y ^ 2) (by linarith) N
    have e : 1 + -y ^ 2 = 1 - y ^ 2 := by ring
    rw [e] at this
    linarith
  have h4 : Real.exp (-y) ^ N * (1 - y ^ 2) ^ N ≤ (1 - y) ^ N := by
    rw [← mul_pow]
    exact pow_le_pow_left₀ (mul_nonneg (Real.exp_pos _).le (by linarith)) hl N
  have hp : 0 ≤ Real.exp (-y) ^ N := by positivity
  have hp1 : Real.exp (-y) ^ N ≤ 1 := pow_le_one₀ (Real.exp_pos _).le (Real.exp_le_one_iff.2 (by linarith))
  have h5 := mul_le_mul_of_nonneg_left hb hp
  have h6 : Real.exp (-y) ^ N * (N * y ^ 2) ≤ 1 * (N * y ^ 2) :=
    mul_le_mul_of_nonneg_right hp1 (by positivity)
  rw [he]
  nlinarith

/-- The exponential of `-a / b` in units of `1/P`, by `n` squarings of `1 - a / (b 2^n)`. -/
noncomputable def expChain (P n a b : ℕ) : ℕ := sqs P n (P - (P * a / (b * 2 ^ n) + 1))

theorem expChain_apx (P n a b : ℕ) (hP : 0 < P) (hb : 0 < b) (hab : a < b * 2 ^ n)
    (hsmall : P * a / (b * 2 ^ n) + 1 ≤ P) (hk : P * a ^ 2 ≤ b ^ 2 * 4 ^ n) :
    Apx P (expChain P n a b) (2 ^ n * 3) (Real.exp (-((a : ℝ) / b))) := by
  set d := b * 2 ^ n with hd
  have hd0 : 0 < d := by positivity
  have hd' : (0 : ℝ) < d := by exact_mod_cast hd0
  have hP' : (0 : ℝ) < P := by exact_mod_cast hP
  set y : ℝ := (a : ℝ) / d with hy
  have y0 : 0 ≤ y := by positivity
  have y1 : y ≤ 1 := by
    rw [hy, div_le_one hd']; exact_mod_cast hab.le
  have hstart : Apx P (P - (P * a / d + 1)) 1 (1 - y) := by
    have e := Nat.div_add_mod (P * a) d
    have hm := Nat.mod_lt (P * a) hd0
    have e' : (d : ℝ) * ((P * a / d : ℕ) : ℝ) + ((P * a % d : ℕ) : ℝ) = P * a := by exact_mod_cast e
    have hm' : ((P * a % d : ℕ) : ℝ) ≤ d := by exact_mod_cast hm.le
    have hm0 : (0 : ℝ) ≤ ((P * a % d : ℕ) : ℝ) := Nat.cast_nonneg _
    have hPy : (d : ℝ) * (P * y) = P * a := by rw [hy]; field_simp
    have l1 : ((P * a / d : ℕ) : ℝ) ≤ P * y := le_of_mul_le_mul_left (by linarith) hd'
    have l2 : P * y ≤ ((P * a / d : ℕ) : ℝ) + 1 := le_of_mul_le_mul_left (by linarith) hd'
    constructor
    · rw [Nat.cast_sub hsmall]; push_cast; linarith
    · rw [Nat.cast_sub hsmall]; push_cast; linarith
  have h := sqs_apx hP hstart (by linarith) (by linarith) n
  have hb' : (0 : ℝ) < b := by exact_mod_cast hb
  have hexp := exp_pow_bounds y (2 ^ n) y0 y1
  have hx : ((2 ^ n : ℕ) : ℝ) * y = (a : ℝ) / b := by
    rw [hy, hd]; push_cast; field_simp
  rw [hx] at hexp
  have hkr : (P : ℝ) * (((2 ^ n : ℕ) : ℝ) * y ^ 2) ≤ 2 ^ n := by
    have e : (P : ℝ) * (((2 ^ n : ℕ) : ℝ) * y ^ 2) = P * a ^ 2 / (b ^ 2 * 2 ^ n) := by
      rw [hy, hd]; push_cast; field_simp
    rw [e, div_le_iff₀ (by positivity)]
    have : (P : ℝ) * a ^ 2 ≤ b ^ 2 * 4 ^ n := by exact_mod_cast hk
    have e4 : (4 : ℝ) ^ n = 2 ^ n * 2 ^ n := by rw [← mul_pow]; norm_num
    rw [e4] at this
    linarith
  constructor
  · exact h.lo.trans (mul_le_mul_of_nonneg_left hexp.1 hP'.le)
  · have h2 := mul_le_mul_of_nonneg_left hexp.2 hP'.le
    have h3 := h.hi
    have hc : ((2 ^ n * (1 + 1) - 1 : ℕ) : ℝ) ≤ 2 ^ n * 2 := by
      have : 2 ^ n * (1 + 1) - 1 ≤ 2 ^ n * 2 := Nat.sub_le _ _
      exact_mod_cast this
    unfold expChain
    push_cast
    linarith

end TNS
