import Verif.Lemmas.XsRise
import Verif.Lemmas.FixedPoint
/-
Integer certificates for the energy grid of the Maxwell average and for the cross sections on it.
-/

set_option autoImplicit false

namespace TNS
open Spec

/-- `g` is the energy `i` of the grid, in units of 1e-9 keV, rounded down. -/
def GB (i g : ℕ) : Prop := (g : ℝ) ≤ 10 ^ 9 * logEnergy i ∧ 10 ^ 9 * logEnergy i ≤ g + 1

theorem logEnergy_pos (i : ℕ) : 0 < logEnergy i := Real.rpow_pos_of_pos (by norm_num) _

theorem logEnergy_pow (i : ℕ) : (10 ^ 9 * logEnergy i) ^ 333 = 10 ^ (i + 2997) := by
  have h : logEnergy i ^ 333 = 10 ^ i := by
    unfold logEnergy
    rw [← Real.rpow_natCast, ← Real.rpow_mul (by norm_num), ← Real.rpow_natCast]
    congr 1
    push_cast; ring
  rw [mul_pow, h, ← pow_mul, ← pow_add]
  congr 1
  omega

theorem le_of_pow_le (n : ℕ) (hn : n ≠ 0) (a b : ℝ) (ha : 0 ≤ a) (hb : 0 ≤ b) (h : a ^ n ≤ b ^ n) : a ≤ b :=
  (pow_le_pow_iff_left₀ ha hb hn).1 h

theorem GB_of (i g : ℕ) (h1 : g ^ 333 ≤ 10 ^ (i + 2997)) (h2 : 10 ^ (i + 2997) ≤ (g + 1) ^ 333) :
    GB i g := by
  have hp : (0 : ℝ) ≤ 10 ^ 9 * logEnergy i := mul_nonneg (by norm_num) (logEnergy_pos i).le
  have h1' : (g : ℝ) ^ 333 ≤ 10 ^ (i + 2997) := by
    have := (Nat.cast_le (α := ℝ)).2 h1
    simpa only [Nat.cast_pow, Nat.cast_ofNat] using this
  have h2' : (10 : ℝ) ^ (i + 2997) ≤ ((g : ℝ) + 1) ^ 333 := by
    have := (Nat.cast_le (α := ℝ)).2 h2
    simpa only [Nat.cast_pow, Nat.cast_ofNat, Nat.cast_add, Nat.cast_one] using this
  rw [← logEnergy_pow] at h1' h2'
  generalize hn : 333 = n at h1' h2'
  have hn0 : n ≠ 0 := by omega
  exact ⟨le_of_pow_le n hn0 _ _ (Nat.cast_nonneg _) hp h1',
    le_of_pow_le n hn0 _ _ hp (add_nonneg (Nat.cast_nonneg _) zero_le_one) h2'⟩

/-- Energies and exponentials of the rows, from index `i` on. -/
noncomputable def gqCheck (P S D : ℕ) : ℕ → List (ℕ × ℕ × ℕ) → Bool
  | _, [] => true
  | i, p :: l =>
    (decide (p.1 ^ 333 ≤ 10 ^ (i + 2997)) && decide (10 ^ (i + 2997) ≤ (p.1 + 1) ^ 333) &&
      decide (p.1 < 10 ^ 12 + 1) && force (expChain P 100 (p.1 + 1) 6400000000000)
        (fun s => Nat.beq (Nat.div s D) p.2.1)) && gqCheck P S D (i + 1) l

theorem gqCheck_sound (i : ℕ) (l : List (ℕ × ℕ × ℕ))
    (h : gqCheck (2 ^ 200) (2 ^ 96) (2 ^ 104) i l = true) (k : ℕ) (p : ℕ × ℕ × ℕ) (hk : l[k]? = some p) :
    GB (i + k) p.1 ∧ Apx (2 ^ 96) p.2.1 2 (Real.exp (-(((p.1 + 1 : ℕ) : ℝ) / 6400000000000))) := by
  induction l generalizing i k with
  | nil => simp at hk
  | cons p' l ih =>
    rw [gqCheck, Bool.and_eq_true] at h
    cases k with
    | succ k =>
      have := ih (i + 1) h.2 k (by simpa using hk)
      rw [show i + (k + 1) = i + 1 + k by omega]
      exact this
    | zero =>
      simp only [List.getElem?_cons_zero, Option.some.injEq] at hk
      subst hk
      have h := h.1
      simp only [Bool.and_eq_true, decide_eq_true_eq, force_eq] at h
      obtain ⟨⟨⟨h1, h2⟩, h3⟩, h4⟩ := h
      have h4 : expChain (2 ^ 200) 100 (p'.1 + 1) 6400000000000 / 2 ^ 104 = p'.2.1 :=
        Nat.eq_of_beq_eq_true h4
      refine ⟨GB_of _ _ h1 h2, ?_⟩
      have hg : p'.1 + 1 ≤ 2 ^ 40 := by norm_num; omega
      have ha := expChain_apx (2 ^ 200) 100 (p'.1 + 1) 6400000000000 (by positivity) (by norm_num)
        (lt_of_le_of_lt hg (by norm_num)) (by
          have : 2 ^ 200 * (p'.1 + 1) / (6400000000000 * 2 ^ 100) ≤
            2 ^ 200 * 2 ^ 40 / (6400000000000 * 2 ^ 100) :=
            Nat.div_le_div_right (Nat.mul_le_mul_left _ hg)
          refine (Nat.add_le_add_right this 1).trans (by norm_num)) (by
          have : (p'.1 + 1) ^ 2 ≤ (2 ^ 40) ^ 2 := Nat.pow_le_pow_left hg 2
          refine (Nat.mul_le_mul_left _ this).trans (by norm_num))
      rw [← h4]
      generalize expChain (2 ^ 200) 100 (p'.1 + 1) 6400000000000 = s at ha
      set x : ℝ := Real.exp (-(((p'.1 + 1 : ℕ) : ℝ) / ((6400000000000 : ℕ) : ℝ))) with hx
      have hx' : Real.exp (-(((p'.1 + 1 : ℕ) : ℝ) / 6400000000000)) = x := by
        rw [hx]; norm_num
      rw [hx']
      have e := Nat.div_add_mod s (2 ^ 104)
      have hm := Nat.mod_lt s (show 0 < 2 ^ 104 by positivity)
      have e' : (2 : ℝ) ^ 104 * ((s / 2 ^ 104 : ℕ) : ℝ) + ((s % 2 ^ 104 : ℕ) : ℝ) = s := by
        exact_mod_cast e
      have hm' : ((s % 2 ^ 104 : ℕ) : ℝ) ≤ 2 ^ 104 := by exact_mod_cast hm.le
      have hm0 : (0 : ℝ) ≤ ((s % 2 ^ 104 : ℕ) : ℝ) := Nat.cast_nonneg _
      have lo := ha.lo
      have hi := ha.hi
      simp only [Nat.cast_pow, Nat.cast_ofNat, Nat.cast_mul] at lo hi
      have e2 : (2 : ℝ) ^ 200 * x = 2 ^ 104 * (2 ^ 96 * x) := by rw [← mul_assoc, ← pow_add]
      rw [e2] at lo hi
      have e3 : (2 : ℝ) ^ 100 * 3 ≤ 2 ^ 104 * 1 := by norm_num
      generalize s / 2 ^ 104 = d at *
      generalize s % 2 ^ 104 = md at *
      generalize hy : (2 : ℝ) ^ 96 * x = y at lo hi
      have hA : (0 : ℝ) < 2 ^ 104 := by positivity
      generalize (2 : ℝ) ^ 104 = A at *
      generalize (2 : ℝ) ^ 100 * 3 = C at *
      constructor
      · simp only [Nat.cast_pow, Nat.cast_ofNat]
        rw [hy]
        exact le_of_mul_le_mul_left (by linarith : A * d ≤ A * y) hA
      · simp only [Nat.cast_pow, Nat.cast_ofNat]
        rw [hy]
        exact le_of_mul_le_mul_left (by linarith : A * y ≤ A * (d + 2)) hA

/-- The part of the rows from the last row with energy below `hi`. -/
def seek (hi : ℕ) : List (ℕ × ℕ) → List (ℕ × ℕ)
  | a :: b :: l => match Nat.ble hi b.1 with
    | true => a :: b :: l
    | false => seek hi (b :: l)
  | l => l

theorem seek_suffix (hi : ℕ) (l : List (ℕ × ℕ)) : ∃ pre, l = pre ++ seek hi l := by
  induction l with
  | nil => exact ⟨[], rfl⟩
  | cons a l ih =>
    cases l with
    | nil => exact ⟨[], rfl⟩
    | cons b l =>
      rw [seek]
      split
      · exact ⟨[], rfl⟩
      · obtain ⟨pre, e⟩ := ih
        exact ⟨a :: pre, by rw [List.cons_append, ← e]⟩

/-- One weight: `a`, `b` are the rows around the energy, `lo`, `hi` bound the energy. -/
def wStep (gp g gn lo hi c : ℕ) (a b : ℕ × ℕ) : Bool :=
  decide (a.1 ≤ lo) && decide (lo ≤ hi) && decide (hi ≤ b.1) && decide (a.1 < b.1) &&
  decide (gp + 1 ≤ gn) &&
  decide (c * ((b.1 - a.1) * 10 ^ 44) ≤
    (gn - gp - 1) * (a.2 * (b.1 - hi) + b.2 * (lo - a.1)) * g) &&
  decide ((gn - gp + 1) * (a.2 * (b.1 - lo) + b.2 * (hi - a.1)) * (g + 1) * 100000 ≤
    100002 * (c * ((b.1 - a.1) * 10 ^ 44)))

/-- The next energy, or the last one. -/
def gNext (g : ℕ) : List (ℕ × ℕ × ℕ) → ℕ
  | [] => g
  | p :: _ => p.1

/-- The weights of one reaction (`cOf` reads them from the rows), from the rows `l` on. -/
def wCheck (rlN rlD rhN rhD : ℕ) (cOf : ℕ → ℕ) : List (ℕ × ℕ) → ℕ → List (ℕ × ℕ × ℕ) → Bool
  | _, _, [] => true
  | file, gp, p :: l =>
    let lo := rlN * p.1 / rlD
    let hi := (rhN * (p.1 + 1) + rhD - 1) / rhD
    match seek hi file with
    | a :: b :: r => wStep gp p.1 (gNext p.1 l) lo hi (cOf p.2.2) a b &&
        wCheck rlN rlD rhN rhD cOf (a :: b :: r) p.1 l
    | _ => false

/-- The weight of energy `i` in the trapezoidal Maxwell average. -/
noncomputable def wgt (σ : ℝ → ℝ) (i : ℕ) : ℝ :=
  (logEnergy (min (i + 1) 999) - logEnergy (i - 1)) / 2 * σ (logEnergy i) * logEnergy i

theorem wStep_sound (ρ : ℝ) (hρ : 0 < ρ) (file : List (ℕ × ℕ))
    (hs : SortedTable (file.map (scaleRow (1 / ρ / 10 ^ 9) (1 / 10 ^ 78))))
    (gp g gn lo hi c : ℕ) (a b : ℕ × ℕ) (pre r : List (ℕ × ℕ)) (e : file = pre ++ a :: b :: r)
    (h : wStep gp g gn lo hi c a b = true) (Ep E En : ℝ)
    (h1 : (gp : ℝ) ≤ 10 ^ 9 * Ep) (h1' : 10 ^ 9 * Ep ≤ gp + 1)
    (h2 : (g : ℝ) ≤ 10 ^ 9 * E) (h2' : 10 ^ 9 * E ≤ g + 1)
    (h3 : (gn : ℝ) ≤ 10 ^ 9 * En) (h3' : 10 ^ 9 * En ≤ gn + 1)
    (hlo : (lo : ℝ) ≤ 10 ^ 9 * E * ρ) (hhi : 10 ^ 9 * E * ρ ≤ hi) :
    let w := (En - Ep) / 2 * npInterp (file.map (scaleRow (1 / ρ / 10 ^ 9) (1 / 10 ^ 78))) E * E
    (c : ℝ) ≤ 2 * 10 ^ 52 * w ∧ 2 * 10 ^ 52 * w ≤ 1.00002 * c := by
  simp only [wStep, Bool.and_eq_true, decide_eq_true_eq] at h
  obtain ⟨⟨⟨⟨⟨⟨k1, k2⟩, k3⟩, k4⟩, k5⟩, k6⟩, k7⟩ := h
  subst e
  rw [List.map_append, List.map_cons, List.map_cons] at hs
  have hcast : ∀ x y : ℕ, x ≤ y → (x : ℝ) ≤ y := fun x y h => by exact_mod_cast h
  have k4' : (a.1 : ℝ) < b.1 := by exact_mod_cast k4
  have i1 : (scaleRow (1 / ρ / 10 ^ 9) (1 / 10 ^ 78) a).1 ≤ E := by
    simp only [scaleRow]
    have := (hcast _ _ k1).trans hlo
    rw [div_div, div_mul_eq_mul_div, one_mul, div_le_iff₀ (by positivity)]
    linarith
  have i2 : E ≤ (scaleRow (1 / ρ / 10 ^ 9) (1 / 10 ^ 78) b).1 := by
    simp only [scaleRow]
    have := hhi.trans (hcast _ _ k3)
    rw [div_div, div_mul_eq_mul_div, one_mul, le_div_iff₀ (by positivity)]
    linarith
  have hseg := npInterp_seg _ _ _ _ hs E i1 i2
  intro w
  have hw : w = (En - Ep) / 2 * ((a.2 : ℝ) * (b.1 - 10 ^ 9 * E * ρ) + b.2 * (10 ^ 9 * E * ρ - a.1)) /
      ((b.1 - a.1) * 10 ^ 78) * E := by
    change (En - Ep) / 2 * npInterp ((pre ++ a :: b :: r).map _) E * E = _
    rw [List.map_append, List.map_cons, List.map_cons, hseg]
    have : (b.1 : ℝ) - a.1 ≠ 0 := by linarith
    simp only [scaleRow]
    have e1 : (1 / ρ / 10 ^ 9 * (b.1 : ℝ) - 1 / ρ / 10 ^ 9 * a.1) = (b.1 - a.1) / (ρ * 10 ^ 9) := by
      field_simp
    rw [e1]
    field_simp
    ring
  -- lower and upper integers as reals
  have db : ((b.1 - a.1 : ℕ) : ℝ) = b.1 - a.1 := Nat.cast_sub k4.le
  have c1 : ((b.1 - hi : ℕ) : ℝ) = b.1 - hi := Nat.cast_sub k3
  have c2 : ((lo - a.1 : ℕ) : ℝ) = lo - a.1 := Nat.cast_sub k1
  have c3 : ((b.1 - lo : ℕ) : ℝ) = b.1 - lo := Nat.cast_sub (k2.trans k3)
  have c4 : ((hi - a.1 : ℕ) : ℝ) = hi - a.1 := Nat.cast_sub (k1.trans k2)
  have c5 : ((gn - gp - 1 : ℕ) : ℝ) = gn - gp - 1 := by
    rw [Nat.sub_sub, Nat.cast_sub k5]; push_cast; ring
  have c6 : ((gn - gp + 1 : ℕ) : ℝ) = gn - gp + 1 := by
    rw [Nat.cast_add, Nat.cast_sub (by omega)]; push_cast; ring
  have k6' : (c : ℝ) * ((b.1 - a.1) * 10 ^ 44) ≤
      (gn - gp - 1) * (a.2 * (b.1 - hi) + b.2 * (lo - a.1)) * g := by
    rw [← db, ← c1, ← c2, ← c5]; exact_mod_cast k6
  have k7' : ((gn : ℝ) - gp + 1) * (a.2 * (b.1 - lo) + b.2 * (hi - a.1)) * (g + 1) * 100000 ≤
      100002 * (c * ((b.1 - a.1) * 10 ^ 44)) := by
    rw [← db, ← c3, ← c4, ← c6]; exact_mod_cast k7
  set X : ℝ := 10 ^ 9 * E * ρ with hX
  set N : ℝ := (a.2 : ℝ) * (b.1 - X) + b.2 * (X - a.1) with hN
  have a20 : (0 : ℝ) ≤ a.2 := Nat.cast_nonneg _
  have b20 : (0 : ℝ) ≤ b.2 := Nat.cast_nonneg _
  have k1' := hcast _ _ k1
  have k3' := hcast _ _ k3
  have k5' := hcast _ _ k5
  have k2' := hcast _ _ k2
  push_cast at k5'
  have n1 : (a.2 : ℝ) * (b.1 - hi) + b.2 * (lo - a.1) ≤ N := by
    have := mul_le_mul_of_nonneg_left hhi a20
    have := mul_le_mul_of_nonneg_left hlo b20
    rw [hN]; linarith
  have n2 : N ≤ (a.2 : ℝ) * (b.1 - lo) + b.2 * (hi - a.1) := by
    have := mul_le_mul_of_nonneg_left hlo a20
    have := mul_le_mul_of_nonneg_left hhi b20
    rw [hN]; linarith
  have n0 : 0 ≤ (a.2 : ℝ) * (b.1 - hi) + b.2 * (lo - a.1) :=
    add_nonneg (mul_nonneg a20 (by linarith)) (mul_nonneg b20 (by linarith))
  have hdb : (0 : ℝ) < b.1 - a.1 := by linarith
  have g0 : (0 : ℝ) ≤ g := Nat.cast_nonneg _
  have hw2 : 2 * 10 ^ 52 * w * ((b.1 - a.1) * 10 ^ 44) =
      (10 ^ 9 * En - 10 ^ 9 * Ep) * N * (10 ^ 9 * E) := by
    rw [hw]; field_simp
  have hpos : (0 : ℝ) < (b.1 - a.1) * 10 ^ 44 := by positivity
  constructor
  · refine le_of_mul_le_mul_right ?_ hpos
    rw [hw2]
    refine k6'.trans ?_
    refine mul_le_mul (mul_le_mul (by linarith) n1 n0 (by linarith)) h2 g0 ?_
    exact mul_nonneg (by linarith) (n0.trans n1)
  · refine le_of_mul_le_mul_right ?_ hpos
    rw [hw2]
    have : (10 ^ 9 * En - 10 ^ 9 * Ep) * N * (10 ^ 9 * E) ≤
        ((gn : ℝ) - gp + 1) * (a.2 * (b.1 - lo) + b.2 * (hi - a.1)) * (g + 1) := by
      refine mul_le_mul (mul_le_mul (by linarith) n2 (n0.trans n1) (by linarith)) h2'
        (g0.trans h2) ?_
      exact mul_nonneg (by linarith) ((n0.trans n1).trans n2)
    norm_num at *
    linarith

theorem wCheck_sound (ρ : ℝ) (hρ : 0 < ρ) (rlN rlD rhN rhD : ℕ) (hl : 0 < rlD) (hh : 0 < rhD)
    (hρl : (rlN : ℝ) / rlD ≤ ρ) (hρh : ρ ≤ (rhN : ℝ) / rhD) (cOf : ℕ → ℕ)
    (full file : List (ℕ × ℕ)) (pre : List (ℕ × ℕ)) (e : full = pre ++ file)
    (hs : SortedTable (full.map (scaleRow (1 / ρ / 10 ^ 9) (1 / 10 ^ 78))))
    (i gp : ℕ) (l : List (ℕ × ℕ × ℕ)) (hlen : i + l.length = 1000) (hgp : GB (i - 1) gp)
    (hg : ∀ k p, l[k]? = some p → GB (i + k) p.1)
    (h : wCheck rlN rlD rhN rhD cOf file gp l = true) (k : ℕ) (p : ℕ × ℕ × ℕ)
    (hk : l[k]? = some p) :
    (cOf p.2.2 : ℝ) ≤ 2 * 10 ^ 52 *
      wgt (npInterp (full.map (scaleRow (1 / ρ / 10 ^ 9) (1 / 10 ^ 78)))) (i + k) ∧
    2 * 10 ^ 52 * wgt (npInterp (full.map (scaleRow (1 / ρ / 10 ^ 9) (1 / 10 ^ 78)))) (i + k) ≤
      1.00002 * cOf p.2.2 := by
  induction l generalizing file pre i gp k with
  | nil => simp at hk
  | cons p' l ih =>
    simp only [wCheck] at h
    split at h
    · rename_i a b r hseek
      rw [Bool.and_eq_true] at h
      obtain ⟨pre2, e2⟩ := seek_suffix ((rhN * (p'.1 + 1) + rhD - 1) / rhD) file
      rw [hseek] at e2
      have hp' : GB i p'.1 := by simpa using hg 0 p' (by simp)
      have efull : full = (pre ++ pre2) ++ a :: b :: r := by
        rw [e, List.append_assoc]; congr 1
      cases k with
      | succ k =>
        have := ih (a :: b :: r) (pre ++ pre2) efull (i + 1) p'.1 (by simp at hlen; omega)
          (by simpa using hp') (fun k p hk => by
            have := hg (k + 1) p (by simpa using hk)
            rwa [show i + (k + 1) = i + 1 + k by omega] at this) h.2 k (by simpa using hk)
        rwa [show i + (k + 1) = i + 1 + k by omega]
      | zero =>
        simp only [List.getElem?_cons_zero, Option.some.injEq] at hk
        subst hk
        have hgn : GB (min (i + 1) 999) (gNext p'.1 l) := by
          cases l with
          | nil =>
            have : i = 999 := by simp at hlen; omega
            rw [show min (i + 1) 999 = i by omega]; exact hp'
          | cons p'' l =>
            have := hg 1 p'' (by simp)
            have hi : i + 1 ≤ 999 := by simp at hlen; omega
            rw [show min (i + 1) 999 = i + 1 by omega]; exact this
        have hlo : ((rlN * p'.1 / rlD : ℕ) : ℝ) ≤ 10 ^ 9 * logEnergy i * ρ := by
          have hl' : (0 : ℝ) < rlD := by exact_mod_cast hl
          calc ((rlN * p'.1 / rlD : ℕ) : ℝ) ≤ ((rlN * p'.1 : ℕ) : ℝ) / rlD := Nat.cast_div_le
            _ = (p'.1 : ℝ) * (rlN / rlD) := by push_cast; ring
            _ ≤ _ := mul_le_mul hp'.1 hρl (by positivity) ((Nat.cast_nonneg _).trans hp'.1)
        have hhi : 10 ^ 9 * logEnergy i * ρ ≤ (((rhN * (p'.1 + 1) + rhD - 1) / rhD : ℕ) : ℝ) := by
          have hh' : (0 : ℝ) < rhD := by exact_mod_cast hh
          have h1 : rhN * (p'.1 + 1) ≤ rhD * ((rhN * (p'.1 + 1) + rhD - 1) / rhD) := by
            have := Nat.div_add_mod (rhN * (p'.1 + 1) + rhD - 1) rhD
            have := Nat.mod_lt (rhN * (p'.1 + 1) + rhD - 1) hh
            omega
          have h1' : (rhN : ℝ) * (p'.1 + 1) ≤ rhD *
              (((rhN * (p'.1 + 1) + rhD - 1) / rhD : ℕ) : ℝ) := by exact_mod_cast h1
          calc 10 ^ 9 * logEnergy i * ρ ≤ ((p'.1 : ℝ) + 1) * (rhN / rhD) :=
                mul_le_mul hp'.2 hρh hρ.le (by positivity)
            _ = (rhN : ℝ) * (p'.1 + 1) / rhD := by ring
            _ ≤ _ := by rw [div_le_iff₀ hh']; linarith
        exact wStep_sound ρ hρ full hs gp p'.1 _ _ _ _ a b (pre ++ pre2) r efull h.1 _ _ _ hgp.1 hgp.2
          hp'.1 hp'.2 hgn.1 hgn.2 hlo hhi
    · exact absurd h (by simp)

end TNS
