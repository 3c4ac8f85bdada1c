import Verif.Props.Format
import Mathlib.Algebra.Ring.Parity
/-
C63: the printed digits are the correctly rounded ones (nearest, ties to an even last digit).
-/

set_option autoImplicit false
set_option linter.unusedSectionVars false

namespace TNS
open Spec

section
variable {K : Type} [Field K] [LinearOrder K] [IsStrictOrderedRing K] [FloorRing K]

theorem roundHalfEven_best (y : K) (n : ℤ) : |(roundHalfEven y : K) - y| ≤ |(n : K) - y| ∧
    (|(n : K) - y| = |(roundHalfEven y : K) - y| → n ≠ roundHalfEven y → Even (roundHalfEven y)) := by
  have h1 := Int.floor_le y
  have h2 := Int.lt_floor_add_one y
  have hn : n ≤ ⌊y⌋ ∨ ⌊y⌋ + 1 ≤ n := by omega
  have far : (n ≤ ⌊y⌋ → y - ⌊y⌋ ≤ |(n : K) - y|) ∧ (⌊y⌋ + 1 ≤ n → ⌊y⌋ + 1 - y ≤ |(n : K) - y|) := by
    constructor
    · intro h
      have : (n : K) ≤ ⌊y⌋ := by exact_mod_cast h
      rw [abs_of_nonpos (by linarith)]; linarith
    · intro h
      have : (⌊y⌋ : K) + 1 ≤ n := by exact_mod_cast h
      rw [abs_of_nonneg (by linarith)]; linarith
  have e1 : |(⌊y⌋ : K) - y| = y - ⌊y⌋ := by rw [abs_of_nonpos (by linarith)]; ring
  have e2 : |((⌊y⌋ + 1 : ℤ) : K) - y| = ⌊y⌋ + 1 - y := by
    push_cast; rw [abs_of_nonneg (by linarith)]
  unfold roundHalfEven
  simp only
  split_ifs with a b c
  · rw [e1]
    constructor
    · rcases hn with h | h
      · exact far.1 h
      · linarith [far.2 h]
    · intro he hne
      exfalso
      rcases hn with h | h
      · have : (n : K) ≤ ⌊y⌋ := by exact_mod_cast h
        rw [abs_of_nonpos (by linarith)] at he
        exact hne (by have : (n : K) = ⌊y⌋ := by linarith
                      exact_mod_cast this)
      · linarith [far.2 h]
  · rw [e2]
    constructor
    · rcases hn with h | h
      · linarith [far.1 h]
      · exact far.2 h
    · intro he hne
      exfalso
      rcases hn with h | h
      · linarith [far.1 h]
      · have : (⌊y⌋ : K) + 1 ≤ n := by exact_mod_cast h
        rw [abs_of_nonneg (by linarith)] at he
        exact hne (by have : (n : K) = (⌊y⌋ + 1 : ℤ) := by push_cast; linarith
                      exact_mod_cast this)
  · rw [e1]
    refine ⟨?_, fun _ _ => Int.even_iff.2 c⟩
    rcases hn with h | h
    · exact far.1 h
    · linarith [far.2 h]
  · rw [e2]
    refine ⟨?_, fun _ _ => Int.even_iff.2 (by omega)⟩
    rcases hn with h | h
    · linarith [far.1 h]
    · exact far.2 h

/-- **C63**, correct rounding.  The printed value `± m · 10^(e-p)` of a non-zero number is a nearest one
among all numbers of `p + 1` significant digits, and when another of them is equally near the last
printed digit is even. -/
theorem C63_correctly_rounded (p : ℕ) (hp : 1 ≤ p) (x : K) (hx : x ≠ 0) :
    ∃ (s : K) (m : ℕ) (e : ℤ), s = (if x < 0 then -1 else 1) ∧ 10 ^ p ≤ m ∧ m < 10 ^ (p + 1) ∧
      readFloat (formatE p x) = some (s * (m * 10 ^ (e - (p : ℤ)))) ∧
      ∀ (m' : ℕ) (e' : ℤ), 10 ^ p ≤ m' → m' < 10 ^ (p + 1) →
        |s * (m * 10 ^ (e - (p : ℤ))) - x| ≤ |s * (m' * 10 ^ (e' - (p : ℤ))) - x| ∧
        (|s * (m' * 10 ^ (e' - (p : ℤ))) - x| = |s * (m * 10 ^ (e - (p : ℤ))) - x| →
          s * (m' * 10 ^ (e' - (p : ℤ))) ≠ s * (m * 10 ^ (e - (p : ℤ))) → Even m) := by
  obtain ⟨m, e, hsci, hmlo, hmhi, hval, hDlo, hDhi⟩ := sciOf_pos p hx
  have hpos : 0 < |x| := abs_pos.2 hx
  have h10 : (0 : K) < 10 := by norm_num
  have h10' : (10 : K) ≠ 0 := h10.ne'
  set E := Int.log 10 |x| with hE
  set y := |x| * (10 : K) ^ ((p : ℤ) - E) with hy
  set u := (10 : K) ^ (E - (p : ℤ)) with hu
  have hu0 : 0 < u := zpow_pos h10 _
  have hlo : (10 : K) ^ E ≤ |x| := by
    have := Int.zpow_log_le_self (b := 10) (by norm_num) hpos
    simpa using this
  have ylo : (10 : K) ^ p ≤ y := by
    have : (10 : K) ^ E * 10 ^ ((p : ℤ) - E) ≤ y :=
      mul_le_mul_of_nonneg_right hlo (zpow_nonneg h10.le _)
    rwa [← zpow_add₀ h10', add_sub_cancel, zpow_natCast] at this
  have hxy : |x| = y * u := by
    rw [hy, hu, mul_assoc, ← zpow_add₀ h10']; simp
  have hmEven : Even (roundHalfEven y) → Even m := by
    intro hev
    have hcast : ((roundHalfEven y).toNat : ℤ) = roundHalfEven y :=
      Int.toNat_of_nonneg (le_trans (by positivity) hDlo)
    have h := hsci
    unfold sciOf at h
    simp only [if_neg hx, ← hE, ← hy] at h
    split_ifs at h with hc
    · have : m = 10 ^ p := (congrArg Sci.digits h).symm
      rw [this]
      exact (by decide : Even 10).pow_of_ne_zero (by omega)
    · have : m = (roundHalfEven y).toNat := (congrArg Sci.digits h).symm
      rw [this, ← Int.even_coe_nat, hcast]
      exact hev
  set s : K := if x < 0 then -1 else 1 with hs
  have hsx : s * |x| = x := by
    rw [hs]
    split_ifs with h
    · rw [abs_of_neg h]; ring
    · rw [abs_of_nonneg (not_lt.1 h)]; ring
  have hs1 : |s| = 1 := by rw [hs]; split_ifs <;> simp
  have hs0 : s ≠ 0 := by intro h; rw [h] at hs1; simp at hs1
  have dist : ∀ k : K, |s * (k * u) - x| = |k - y| * u := by
    intro k
    rw [← hsx, hxy, ← mul_sub, abs_mul, hs1, one_mul, ← sub_mul, abs_mul, abs_of_pos hu0]
  refine ⟨s, m, e, rfl, hmlo, hmhi, ?_, ?_⟩
  · have := readFloat_render (K := K) p _ (sciOf_digits p x)
    rw [formatE, this, hsci, Sci.value]
    congr 1
    rw [hs]
    by_cases h : x < 0 <;> simp [h]
  · intro m' e' hm1 hm2
    rw [hval, dist]
    have hk : (m' : K) * 10 ^ (e' - (p : ℤ)) = ((m' : K) * 10 ^ (e' - E)) * u := by
      rw [hu, mul_assoc, ← zpow_add₀ h10']; congr 2; ring
    rw [hk, dist]
    set k := (m' : K) * 10 ^ (e' - E) with hkdef
    rcases lt_or_ge e' E with hlt | hge
    · have hklt : k < (10 : K) ^ p := by
        have h1 : (10 : K) ^ (e' - E) ≤ 10 ^ (-1 : ℤ) := zpow_le_zpow_right₀ (by norm_num) (by omega)
        have h2 : (m' : K) < 10 ^ (p + 1) := by exact_mod_cast hm2
        have h3 : (0 : K) ≤ m' := by positivity
        calc k ≤ (m' : K) * 10 ^ (-1 : ℤ) := mul_le_mul_of_nonneg_left h1 h3
          _ < 10 ^ (p + 1) * 10 ^ (-1 : ℤ) := mul_lt_mul_of_pos_right h2 (zpow_pos h10 _)
          _ = 10 ^ p := by rw [pow_succ, zpow_neg_one]; field_simp
      have hb := (roundHalfEven_best y ((10 : ℤ) ^ p)).1
      push_cast at hb
      rw [abs_of_nonpos (a := (10 : K) ^ p - y) (by linarith)] at hb
      have hk' : |k - y| = y - k := by rw [abs_of_nonpos (by linarith)]; ring
      have hstrict : |(roundHalfEven y : K) - y| < |k - y| := by rw [hk']; linarith
      refine ⟨mul_le_mul_of_nonneg_right hstrict.le hu0.le, fun h => ?_⟩
      exact absurd h (mul_lt_mul_of_pos_right hstrict hu0).ne'
    · obtain ⟨t, ht⟩ : ∃ t : ℕ, e' - E = t := ⟨(e' - E).toNat, by omega⟩
      have hkint : k = ((m' * 10 ^ t : ℤ) : K) := by
        rw [hkdef, ht, zpow_natCast]; push_cast; ring
      obtain ⟨b1, b2⟩ := roundHalfEven_best y (m' * 10 ^ t : ℤ)
      rw [← hkint] at b1 b2
      refine ⟨mul_le_mul_of_nonneg_right b1 hu0.le, fun h hne => hmEven (b2 ?_ ?_)⟩
      · exact mul_right_cancel₀ hu0.ne' h
      · intro h
        apply hne
        rw [hkint, h]

end

/-- A tie: 0.125 with one digit after the first is printed with an even last digit, 1.2e-01. -/
example : formatE 1 (125 / 1000 : ℚ) = "1.2e-01".toList := by
  have h : Int.log 10 |(125 / 1000 : ℚ)| = -1 := by
    rw [abs_of_pos (by norm_num)]
    exact Ex.log_eq _ _ (by norm_num) (by norm_num)
  unfold formatE sciOf
  rw [if_neg (by norm_num)]
  simp only [h]
  decide +kernel

end TNS
