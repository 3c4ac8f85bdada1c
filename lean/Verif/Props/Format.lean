import Verif.Model.Format
import Verif.Spec.Format
import Mathlib.Data.Nat.Digits.Lemmas
import Mathlib.Tactic.Linarith
import Mathlib.Tactic.FieldSimp
import Mathlib.Tactic.Ring
import Mathlib.Tactic.NormNum
import Mathlib.Data.Rat.Floor
/-
C63: the numbers printed in the SDEF file.
-/

set_option autoImplicit false
set_option linter.unusedSectionVars false

namespace TNS
open Spec

section round
variable {K : Type} [Field K] [LinearOrder K] [IsStrictOrderedRing K] [FloorRing K]

theorem roundHalfEven_err (y : K) : |(roundHalfEven y : K) - y| ≤ 1 / 2 := by
  have h1 := Int.floor_le y
  have h2 := Int.lt_floor_add_one y
  unfold roundHalfEven
  simp only
  rw [abs_le]
  split_ifs with a b c <;> push_cast <;> constructor <;> linarith

theorem roundHalfEven_mono {x y : K} (h : x ≤ y) : roundHalfEven x ≤ roundHalfEven y := by
  by_contra hc
  push Not at hc
  have hx := abs_le.1 (roundHalfEven_err x)
  have hy := abs_le.1 (roundHalfEven_err y)
  have h1 : (roundHalfEven y : K) + 1 ≤ roundHalfEven x := by exact_mod_cast hc
  have e : x = y := by linarith
  subst e
  linarith

theorem roundHalfEven_int (n : ℤ) : roundHalfEven (n : K) = n := by
  unfold roundHalfEven; simp

/-- The number that a `Sci` denotes. -/
def Sci.value (p : ℕ) (s : Sci) : K :=
  (if s.neg then -1 else 1) * ((s.digits : K) * 10 ^ (s.exp - (p : ℤ)))

/-- Absolute value of the printed number, before the sign is put. -/
theorem sciOf_pos (p : ℕ) {x : K} (hx : x ≠ 0) :
    ∃ (d : ℕ) (e : ℤ), sciOf p x = ⟨decide (x < 0), d, e⟩ ∧ 10 ^ p ≤ d ∧ d < 10 ^ (p + 1) ∧
      (d : K) * 10 ^ (e - (p : ℤ)) =
        (roundHalfEven (|x| * (10 : K) ^ ((p : ℤ) - Int.log 10 |x|)) : K) *
          10 ^ (Int.log 10 |x| - (p : ℤ)) ∧
      (10 : ℤ) ^ p ≤ roundHalfEven (|x| * (10 : K) ^ ((p : ℤ) - Int.log 10 |x|)) ∧
      roundHalfEven (|x| * (10 : K) ^ ((p : ℤ) - Int.log 10 |x|)) ≤ (10 : ℤ) ^ (p + 1) := by
  have hpos : 0 < |x| := abs_pos.2 hx
  set e := Int.log 10 |x| with he
  have h10 : (0 : K) < 10 := by norm_num
  have h10' : (10 : K) ≠ 0 := h10.ne'
  have hlo : (10 : K) ^ e ≤ |x| := by
    have := Int.zpow_log_le_self (b := 10) (by norm_num) hpos
    simpa using this
  have hhi : |x| < (10 : K) ^ (e + 1) := by
    have := Int.lt_zpow_succ_log_self (b := 10) (by norm_num) |x|
    simpa using this
  set y := |x| * (10 : K) ^ ((p : ℤ) - e) with hy
  have ylo : (10 : K) ^ p ≤ y := by
    have : (10 : K) ^ e * 10 ^ ((p : ℤ) - e) ≤ y :=
      mul_le_mul_of_nonneg_right hlo (zpow_nonneg h10.le _)
    rwa [← zpow_add₀ h10', add_sub_cancel, zpow_natCast] at this
  have yhi : y ≤ (10 : K) ^ (p + 1) := by
    have : y ≤ (10 : K) ^ (e + 1) * 10 ^ ((p : ℤ) - e) :=
      mul_le_mul_of_nonneg_right hhi.le (zpow_nonneg h10.le _)
    rw [← zpow_add₀ h10', show e + 1 + ((p : ℤ) - e) = ((p + 1 : ℕ) : ℤ) by push_cast; ring,
      zpow_natCast] at this
    exact this
  have dlo : (10 : ℤ) ^ p ≤ roundHalfEven y := by
    have := roundHalfEven_mono ylo
    rwa [show ((10 : K) ^ p) = (((10 : ℤ) ^ p : ℤ) : K) by push_cast; ring, roundHalfEven_int] at this
  have dhi : roundHalfEven y ≤ (10 : ℤ) ^ (p + 1) := by
    have := roundHalfEven_mono yhi
    rwa [show ((10 : K) ^ (p + 1)) = (((10 : ℤ) ^ (p + 1) : ℤ) : K) by push_cast; ring,
      roundHalfEven_int] at this
  have hd0 : 0 ≤ roundHalfEven y := le_trans (by positivity) dlo
  have hcast : ((roundHalfEven y).toNat : ℤ) = roundHalfEven y := Int.toNat_of_nonneg hd0
  have hcastK : ((roundHalfEven y).toNat : K) = (roundHalfEven y : K) := by
    rw [← Int.cast_natCast, hcast]
  unfold sciOf
  simp only [if_neg hx, ← he, ← hy]
  by_cases hd : (roundHalfEven y).toNat = 10 ^ (p + 1)
  · rw [if_pos hd]
    refine ⟨10 ^ p, e + 1, rfl, le_refl _, Nat.pow_lt_pow_right (by norm_num) (by omega), ?_,
      dlo, dhi⟩
    rw [← hcastK, hd]
    push_cast
    rw [show e + 1 - (p : ℤ) = 1 + (e - p) by ring, zpow_add₀ h10', zpow_one, pow_succ]
    ring
  · rw [if_neg hd]
    refine ⟨_, e, rfl, ?_, ?_, by rw [hcastK], dlo, dhi⟩
    · zify; rw [hcast]; exact dlo
    · refine lt_of_le_of_ne ?_ hd
      zify; rw [hcast]; exact dhi

/-- The printed number in closed form. -/
theorem value_sciOf (p : ℕ) {x : K} (hx : x ≠ 0) :
    (sciOf p x).value p = (if x < 0 then -1 else 1) *
      ((roundHalfEven (|x| * (10 : K) ^ ((p : ℤ) - Int.log 10 |x|)) : K) *
          10 ^ (Int.log 10 |x| - (p : ℤ))) := by
  obtain ⟨d, e, h1, _, _, h2, _⟩ := sciOf_pos p hx
  rw [h1, Sci.value, ← h2]
  by_cases h : x < 0 <;> simp [h]

theorem value_zero (p : ℕ) : (sciOf p (0 : K)).value p = (0 : K) := by
  simp [sciOf, Sci.value]

theorem value_err (p : ℕ) (x : K) :
    |(sciOf p x).value p - x| ≤ (10 : K) ^ (-(p : ℤ)) / 2 * |x| := by
  by_cases hx : x = 0
  · subst hx; rw [value_zero]; simp
  have hpos : 0 < |x| := abs_pos.2 hx
  have h10 : (0 : K) < 10 := by norm_num
  have h10' : (10 : K) ≠ 0 := h10.ne'
  rw [value_sciOf p hx]
  set e := Int.log 10 |x| with he
  have hlo : (10 : K) ^ e ≤ |x| := by
    have := Int.zpow_log_le_self (b := 10) (by norm_num) hpos
    simpa using this
  set y := |x| * (10 : K) ^ ((p : ℤ) - e) with hy
  have hxy : |x| = y * 10 ^ (e - (p : ℤ)) := by
    rw [hy, mul_assoc, ← zpow_add₀ h10']; simp
  have habs : abs ((roundHalfEven y : K) * 10 ^ (e - (p : ℤ)) - abs x) ≤ 1 / 2 * 10 ^ (e - (p : ℤ)) := by
    rw [hxy, ← sub_mul, abs_mul, abs_of_pos (zpow_pos h10 _)]
    exact mul_le_mul_of_nonneg_right (roundHalfEven_err y) (zpow_nonneg h10.le _)
  have hbound : (1 : K) / 2 * 10 ^ (e - (p : ℤ)) ≤ (10 : K) ^ (-(p : ℤ)) / 2 * |x| := by
    rw [show e - (p : ℤ) = -(p : ℤ) + e by ring, zpow_add₀ h10']
    have := mul_le_mul_of_nonneg_left hlo (zpow_nonneg h10.le (-(p : ℤ)))
    linarith
  have hsign : (if x < 0 then (-1 : K) else 1) * |x| = x := by
    split_ifs with h
    · rw [abs_of_neg h]; ring
    · rw [abs_of_nonneg (not_lt.1 h)]; ring
  calc |(if x < 0 then (-1 : K) else 1) * ((roundHalfEven y : K) * 10 ^ (e - (p : ℤ))) - x|
      = abs ((if x < 0 then (-1 : K) else 1) * ((roundHalfEven y : K) * 10 ^ (e - (p : ℤ)) - abs x)) := by
        rw [mul_sub, hsign]
    _ = abs ((roundHalfEven y : K) * 10 ^ (e - (p : ℤ)) - abs x) := by
        rw [abs_mul]; split_ifs <;> simp
    _ ≤ _ := habs.trans hbound

theorem value_sign (p : ℕ) (x : K) :
    (0 < (sciOf p x).value (K := K) p ↔ 0 < x) ∧ ((sciOf p x).value (K := K) p < 0 ↔ x < 0) := by
  by_cases hx : x = 0
  · subst hx; rw [value_zero]; simp
  obtain ⟨d, e, h1, h2, _⟩ := sciOf_pos p hx
  have hd : (0 : K) < d := by
    have : 0 < d := lt_of_lt_of_le (by positivity) h2
    exact_mod_cast this
  have hm : (0 : K) < (d : K) * 10 ^ (e - (p : ℤ)) := mul_pos hd (zpow_pos (by norm_num) _)
  rw [h1, Sci.value]
  by_cases h : x < 0
  · simp only [h, decide_true, if_true]
    constructor
    · constructor
      · intro h'; linarith
      · intro h'; linarith
    · constructor
      · intro _; trivial
      · intro _; linarith
  · have h' : 0 < x := lt_of_le_of_ne (not_lt.1 h) (Ne.symm hx)
    simp only [h, decide_false]
    constructor
    · constructor
      · intro _; exact h'
      · intro _; simpa using hm
    · constructor
      · intro h2; simp at h2; linarith
      · intro h2; exact absurd h2 (by simp)

theorem abs_mono (p : ℕ) {x y : K} (hx : 0 < x) (hxy : x ≤ y) :
    (sciOf p x).value (K := K) p ≤ (sciOf p y).value p := by
  have hy : 0 < y := hx.trans_le hxy
  have h10 : (0 : K) < 10 := by norm_num
  have h10' : (10 : K) ≠ 0 := h10.ne'
  rw [value_sciOf p hx.ne', value_sciOf p hy.ne', if_neg (not_lt.2 hx.le), if_neg (not_lt.2 hy.le)]
  obtain ⟨_, _, _, _, _, _, _, ux⟩ := sciOf_pos p hx.ne'
  obtain ⟨_, _, _, _, _, _, ly, _⟩ := sciOf_pos p hy.ne'
  rw [abs_of_pos hx] at *
  rw [abs_of_pos hy] at *
  have hlog : Int.log 10 x ≤ Int.log 10 y := Int.log_mono_right hx hxy
  rcases hlog.eq_or_lt with he | hlt
  · rw [he]
    simp only [one_mul]
    apply mul_le_mul_of_nonneg_right _ (zpow_nonneg h10.le _)
    exact_mod_cast roundHalfEven_mono (mul_le_mul_of_nonneg_right hxy (zpow_nonneg h10.le _))
  · simp only [one_mul]
    set ex := Int.log 10 x
    set ey := Int.log 10 y
    have hX : (roundHalfEven (x * (10 : K) ^ ((p : ℤ) - ex)) : K) * 10 ^ (ex - (p : ℤ)) ≤
        10 ^ (ex + 1) := by
      have : (roundHalfEven (x * (10 : K) ^ ((p : ℤ) - ex)) : K) ≤ 10 ^ (p + 1) := by
        exact_mod_cast ux
      have := mul_le_mul_of_nonneg_right this (zpow_nonneg h10.le (ex - (p : ℤ)))
      rwa [← zpow_natCast, ← zpow_add₀ h10',
        show ((p + 1 : ℕ) : ℤ) + (ex - (p : ℤ)) = ex + 1 by push_cast; ring] at this
    have hY : (10 : K) ^ ey ≤
        (roundHalfEven (y * (10 : K) ^ ((p : ℤ) - ey)) : K) * 10 ^ (ey - (p : ℤ)) := by
      have : (10 : K) ^ p ≤ (roundHalfEven (y * (10 : K) ^ ((p : ℤ) - ey)) : K) := by
        exact_mod_cast ly
      have := mul_le_mul_of_nonneg_right this (zpow_nonneg h10.le (ey - (p : ℤ)))
      rwa [← zpow_natCast, ← zpow_add₀ h10', add_sub_cancel] at this
    exact hX.trans ((zpow_le_zpow_right₀ (by norm_num) (by omega)).trans hY)

theorem value_neg (p : ℕ) (x : K) : (sciOf p (-x)).value (K := K) p = -(sciOf p x).value p := by
  by_cases hx : x = 0
  · subst hx; simp [value_zero]
  rw [value_sciOf p hx, value_sciOf p (neg_ne_zero.2 hx), abs_neg]
  rcases lt_or_gt_of_ne hx with h | h
  · have h2 : ¬ 0 < x := by linarith
    simp [h, h2]
  · have h2 : ¬ x < 0 := by linarith
    simp [h, h2]

theorem value_mono (p : ℕ) {x y : K} (hxy : x ≤ y) :
    (sciOf p x).value (K := K) p ≤ (sciOf p y).value p := by
  rcases lt_or_ge 0 x with hx | hx
  · exact abs_mono p hx hxy
  · rcases lt_or_ge y 0 with hy | hy
    · have := abs_mono p (x := -y) (y := -x) (by linarith) (by linarith)
      rw [value_neg, value_neg] at this
      linarith
    · have h1 : ¬ 0 < (sciOf p x).value (K := K) p := fun h => by
        have := (value_sign p x).1.1 h; linarith
      have h2 : ¬ (sciOf p y).value (K := K) p < 0 := fun h => by
        have := (value_sign p y).2.1 h; linarith
      linarith

end round

/-! ### Text -/

theorem digitChar_toNat (d : ℕ) (h : d < 10) : (digitChar d).toNat = 48 + d := by
  interval_cases d <;> rfl

theorem digitChar_range (d : ℕ) (h : d < 10) : '0' ≤ digitChar d ∧ digitChar d ≤ '9' := by
  interval_cases d <;> decide

theorem digitChar_ne (d : ℕ) (h : d < 10) : digitChar d ≠ 'e' ∧ digitChar d ≠ '-' ∧
    digitChar d ≠ ' ' ∧ digitChar d ≠ '\n' := by
  interval_cases d <;> decide

theorem padDigits_spec (w n : ℕ) : ∃ l : List ℕ, padDigits w n = l.reverse.map digitChar ∧
    (∀ d ∈ l, d < 10) ∧ Nat.ofDigits 10 l = n ∧ w ≤ l.length ∧ (n < 10 ^ w → l.length = w) := by
  refine ⟨Nat.digits 10 n ++ List.replicate (w - (Nat.digits 10 n).length) 0, rfl, ?_, ?_, ?_, ?_⟩
  · intro d hd
    rcases List.mem_append.1 hd with h | h
    · exact Nat.digits_lt_base (by norm_num) h
    · rw [List.eq_of_mem_replicate h]; norm_num
  · rw [Nat.ofDigits_append, Nat.ofDigits_digits, Nat.ofDigits_replicate_zero, mul_zero, add_zero]
  · simp; omega
  · intro h
    have := (Nat.digits_length_le_iff (b := 10) (by norm_num) n).2 h
    simp; omega

theorem readNat_digits (l : List ℕ) (h : ∀ d ∈ l, d < 10) :
    readNat (l.reverse.map digitChar) = some (Nat.ofDigits 10 l) := by
  unfold readNat
  rw [if_pos]
  · congr 1
    rw [List.map_reverse, List.foldl_reverse]
    induction l with
    | nil => rfl
    | cons d l ih =>
      have ih := ih (fun x hx => h x (List.mem_cons_of_mem _ hx))
      rw [List.map_cons, List.foldr_cons, ih, digitChar_toNat d (h d (by simp)),
        Nat.ofDigits_cons]
      simp
      omega
  · rw [List.all_eq_true]
    intro c hc
    obtain ⟨d, hd, rfl⟩ := List.mem_map.1 hc
    simpa using digitChar_range d (h d (by simpa using hd))

theorem padDigits_mem (w n : ℕ) (c : Char) (h : c ∈ padDigits w n) :
    c ≠ 'e' ∧ c ≠ '-' ∧ c ≠ ' ' ∧ c ≠ '\n' := by
  obtain ⟨l, e, h10, _⟩ := padDigits_spec w n
  rw [e] at h
  obtain ⟨d, hd, rfl⟩ := List.mem_map.1 h
  exact digitChar_ne d (h10 d (by simpa using hd))

theorem readNat_padDigits (w n : ℕ) : readNat (padDigits w n) = some n := by
  obtain ⟨l, e, h10, hl, _⟩ := padDigits_spec w n
  rw [e, readNat_digits l h10, hl]

theorem length_padDigits (w n : ℕ) (h : n < 10 ^ w) : (padDigits w n).length = w := by
  obtain ⟨l, e, _, _, _, h2⟩ := padDigits_spec w n
  rw [e]; simp [h2 h]

section text
variable {K : Type} [Field K] [LinearOrder K] [IsStrictOrderedRing K] [FloorRing K]

theorem span_append {α : Type} (q : α → Bool) (a : List α) (b : α) (c : List α)
    (ha : ∀ x ∈ a, q x = true) (hb : q b = false) : (a ++ b :: c).span q = (a, b :: c) := by
  rw [List.span_eq_takeWhile_dropWhile, List.takeWhile_append_of_pos ha,
    List.dropWhile_append_of_pos ha]
  simp [hb]

theorem readUnsigned_render (p : ℕ) (s : Sci) (hd : s.digits < 10 ^ (p + 1)) :
    readUnsigned (K := K) ({ s with neg := false }.render p) =
      some ((s.digits : K) * 10 ^ (s.exp - (p : ℤ))) := by
  have hlen := length_padDigits (p + 1) s.digits hd
  have hrd := readNat_padDigits (p + 1) s.digits
  have hmem := padDigits_mem (p + 1) s.digits
  unfold Sci.render
  simp only
  rcases hp : padDigits (p + 1) s.digits with _ | ⟨c, cs⟩
  · rw [hp] at hlen; simp at hlen
  rw [hp] at hlen hrd hmem
  simp only [List.length_cons, Nat.add_right_cancel_iff] at hlen
  unfold readUnsigned
  have hspan : (([] ++ c :: '.' :: cs ++ ['e', if s.exp < 0 then '-' else '+']) ++
      padDigits 2 s.exp.natAbs).span (fun x => decide (x ≠ 'e')) =
      (c :: '.' :: cs, 'e' :: (if s.exp < 0 then '-' else '+') :: padDigits 2 s.exp.natAbs) := by
    have := span_append (fun x => decide (x ≠ 'e')) (c :: '.' :: cs) 'e'
      ((if s.exp < 0 then '-' else '+') :: padDigits 2 s.exp.natAbs) (by
        intro x hx
        rcases List.mem_cons.1 hx with rfl | hx
        · simpa using (hmem x (by simp)).1
        · rcases List.mem_cons.1 hx with rfl | hx
          · decide
          · simpa using (hmem x (List.mem_cons_of_mem _ hx)).1) (by simp)
    rw [← this]
    simp
  simp only [Bool.false_eq_true, if_false]
  rw [hspan]
  simp only [hrd, readNat_padDigits, Option.bind_eq_bind, Option.bind_some, hlen]
  by_cases he : s.exp < 0
  · have : ((s.exp.natAbs : ℕ) : ℤ) = -s.exp := by omega
    rw [if_pos he, if_neg (by decide), if_pos rfl, this, neg_neg]
  · have : ((s.exp.natAbs : ℕ) : ℤ) = s.exp := by omega
    rw [if_neg he, if_pos rfl, this]

theorem readFloat_render (p : ℕ) (s : Sci) (hd : s.digits < 10 ^ (p + 1)) :
    readFloat (K := K) (s.render p) = some (s.value p) := by
  have h := readUnsigned_render (K := K) p s hd
  rcases s with ⟨_ | _, d, e⟩
  · have hne : ∀ l, (⟨false, d, e⟩ : Sci).render p ≠ '-' :: l := by
      intro l hl
      have hlen := length_padDigits (p + 1) d hd
      rcases hp : padDigits (p + 1) d with _ | ⟨c, cs⟩
      · rw [hp] at hlen; simp at hlen
      unfold Sci.render at hl
      simp only [hp] at hl
      simp at hl
      exact (padDigits_mem (p + 1) d c (by rw [hp]; simp)).2.1 hl.1
    unfold readFloat
    split
    · rename_i l hl
      exact absurd hl (hne l)
    · rw [show (⟨false, d, e⟩ : Sci).render p = { (⟨false, d, e⟩ : Sci) with neg := false }.render p
        from rfl, h]
      simp [Sci.value]
  · have : (⟨true, d, e⟩ : Sci).render p = '-' :: { (⟨true, d, e⟩ : Sci) with neg := false }.render p := by
      simp [Sci.render]
    rw [this]
    show (readUnsigned _).map _ = _
    rw [h]
    simp [Sci.value]

theorem sciOf_digits (p : ℕ) (x : K) : (sciOf p x).digits < 10 ^ (p + 1) := by
  by_cases hx : x = 0
  · simp [sciOf, hx]
  · obtain ⟨d, e, h1, _, h2, _⟩ := sciOf_pos p hx
    rw [h1]; exact h2

/-- **C63.**  The text written for a number reads back as a number `v` with the same sign, with
relative error at most half a unit in the last of its `p + 1` digits; zero is written as zero. -/
theorem C63_accuracy (p : ℕ) (x : K) : ∃ v : K, readFloat (formatE p x) = some v ∧
    |v - x| ≤ (10 : K) ^ (-(p : ℤ)) / 2 * |x| ∧ (0 < v ↔ 0 < x) ∧ (v < 0 ↔ x < 0) :=
  ⟨_, readFloat_render p _ (sciOf_digits p x), value_err p x, (value_sign p x).1, (value_sign p x).2⟩

/-- **C63** for the `.5e` of the cards: relative error at most 5e-6. -/
theorem C63_cards (x : K) : ∃ v : K, readFloat (formatE 5 x) = some v ∧
    |v - x| ≤ 5 / 1000000 * |x| := by
  obtain ⟨v, h1, h2, _⟩ := C63_accuracy 5 x
  refine ⟨v, h1, h2.trans_eq ?_⟩
  congr 1
  norm_num

/-- **C63**, order: printing never reverses the order of two numbers, and keeps it strict when they
differ by more than a relative 1e-5; in particular printed bin boundaries are non-decreasing. -/
theorem C63_monotone (x y : K) (hxy : x ≤ y) : ∃ v w : K, readFloat (formatE 5 x) = some v ∧
    readFloat (formatE 5 y) = some w ∧ v ≤ w ∧ (5 / 1000000 * (|x| + |y|) < y - x → v < w) := by
  refine ⟨_, _, readFloat_render 5 _ (sciOf_digits 5 x), readFloat_render 5 _ (sciOf_digits 5 y),
    value_mono 5 hxy, ?_⟩
  intro h
  have e : (10 : K) ^ (-((5 : ℕ) : ℤ)) / 2 = 5 / 1000000 := by norm_num
  have h1 := abs_le.1 (value_err 5 x)
  have h2 := abs_le.1 (value_err 5 y)
  rw [e] at h1 h2
  linarith [h1.2, h2.1]

/-- The text of a number has no blank and no line break (it is one field of a card). -/
theorem formatE_no_blank (p : ℕ) (x : K) (c : Char) (h : c ∈ formatE p x) : c ≠ ' ' ∧ c ≠ '\n' := by
  unfold formatE Sci.render at h
  simp only [List.mem_append, List.mem_cons, List.not_mem_nil, or_false] at h
  rcases h with ((h | h) | h) | h
  · split at h
    · simp at h; subst h; decide
    · simp at h
  · have hm := padDigits_mem (p + 1) (sciOf p x).digits
    split at h
    · simp at h
    · rename_i c' cs hp
      rw [hp] at hm
      rcases List.mem_cons.1 h with rfl | h
      · exact (hm c (by simp)).2.2
      · rcases List.mem_cons.1 h with rfl | h
        · decide
        · exact (hm c (List.mem_cons_of_mem _ h)).2.2
  · rcases h with rfl | rfl
    · decide
    · split <;> decide
  · exact (padDigits_mem _ _ c h).2.2

/-- Length of a printed number with a two-digit exponent: `p + 6` characters, one more if
negative. -/
theorem length_formatE (p : ℕ) (x : K) (he : (sciOf p x).exp.natAbs < 100) :
    (formatE p x).length = p + 6 + (if (sciOf p x).neg then 1 else 0) := by
  unfold formatE Sci.render
  have h1 := length_padDigits (p + 1) _ (sciOf_digits p x)
  have h2 := length_padDigits 2 _ (show (sciOf p x).exp.natAbs < 10 ^ 2 by simpa using he)
  rcases hp : padDigits (p + 1) (sciOf p x).digits with _ | ⟨c, cs⟩
  · rw [hp] at h1; simp at h1
  · rw [hp] at h1
    simp only [List.length_cons, Nat.add_right_cancel_iff] at h1
    split_ifs <;> simp [h1, h2]

end text

/-! ### Examples -/

theorem Ex.log_eq (x : ℚ) (e : ℤ) (h1 : (10 : ℚ) ^ e ≤ x) (h2 : x < 10 ^ (e + 1)) :
    Int.log 10 x = e := by
  have hx : 0 < x := lt_of_lt_of_le (zpow_pos (by norm_num) _) h1
  apply le_antisymm
  · have := (Int.lt_zpow_iff_log_lt (b := 10) (by norm_num) (x := e + 1) hx).1 (by exact_mod_cast h2)
    omega
  · exact (Int.zpow_le_iff_le_log (b := 10) (by norm_num) hx).1 (by exact_mod_cast h1)

/-- A value that rounds to the next decade: 9.999996 prints as 1.00000e+01. -/
example : formatE 5 (9999996 / 1000000 : ℚ) = "1.00000e+01".toList := by
  have h : Int.log 10 |(9999996 / 1000000 : ℚ)| = 0 := by
    rw [abs_of_pos (by norm_num)]
    exact Ex.log_eq _ _ (by norm_num) (by norm_num)
  unfold formatE sciOf
  rw [if_neg (by norm_num)]
  simp only [h]
  decide +kernel

end TNS
