import Verif.Lemmas.XsNodes
import Verif.Lemmas.BhNodes
/-
The product of the Maxwell sum and of the Bosch-Hale denominator between the nodes.
-/

set_option autoImplicit false
set_option maxRecDepth 100000

namespace TNS
open Spec Set

/-- Between node `m` and node `m + 1`: bounds from three nodes. -/
def spanOk (cOf : ℕ → ℕ) (acc gl gh : List (List ℕ)) (E tlo thi m j : ℕ) : Bool :=
  let a0 := cOf (get2 acc (m - 1) j) + E
  let b := cOf (get2 acc m j)
  let c0 := cOf (get2 acc (m + 1) j) + E
  decide ((b + E) * get2 gh m j ≤ thi) &&
  decide (c0 * get2 gh m j ^ 2 ≤ thi * get2 gl (m - 1) j) &&
  decide (tlo ≤ b * get2 gl m j) &&
  decide (10000201 * tlo * a0 ≤ 10000000 * b ^ 2 * get2 gl (m + 1) j)

/-- All spans up to `β = X / 6400`. -/
def spansOk (cOf : ℕ → ℕ) (acc gl gh : List (List ℕ)) (E tlo thi X : ℕ) : Bool :=
  (List.range 9).all fun j => (List.range 64).all fun m =>
    decide (X < (63 + (m + 1)) * 2 ^ j) || spanOk cOf acc gl gh E tlo thi (m + 1) j

/-- What is known about one reaction. -/
structure NodeData (cOf : ℕ → ℕ) (gl gh : List (List ℕ)) (F G : ℝ → ℝ) : Prop where
  F_pos : ∀ β ∈ Icc (63 / 6400 : ℝ) (512 / 100), 0 < F β
  G_pos : ∀ β ∈ Icc (63 / 6400 : ℝ) (512 / 100), 0 < G β
  F_convex : ConvexOn ℝ (Icc (63 / 6400 : ℝ) (512 / 100)) (fun β => Real.log (F β))
  G_concave : ConcaveOn ℝ (Icc (63 / 6400 : ℝ) (512 / 100)) (fun β => Real.log (G β))
  F_lo : ∀ m j : ℕ, m < 66 → j < 9 → (cOf (get2 Data.xsAcc5 m j) : ℝ) ≤
    2 * 10 ^ 52 * 2 ^ 96 * F ((63 + m) * 2 ^ j / 6400)
  F_hi : ∀ m j : ℕ, m < 66 → j < 9 → 2 * 10 ^ 52 * 2 ^ 96 * F ((63 + m) * 2 ^ j / 6400) ≤
    1.0000201 * ((cOf (get2 Data.xsAcc5 m j) : ℝ) + 98304 * 2 ^ 100)
  G_lo : ∀ m j : ℕ, m < 66 → j < 9 → (get2 gl m j : ℝ) ≤ 10 ^ 12 * G ((63 + m) * 2 ^ j / 6400)
  G_hi : ∀ m j : ℕ, m < 66 → j < 9 → 10 ^ 12 * G ((63 + m) * 2 ^ j / 6400) ≤ get2 gh m j

theorem span_sound {cOf : ℕ → ℕ} {gl gh : List (List ℕ)} {F G : ℝ → ℝ}
    (d : NodeData cOf gl gh F G) (tlo thi : ℕ) (ht : 0 < tlo) (m j : ℕ) (hm1 : 1 ≤ m) (hm : m < 65)
    (hj : j < 9) (h : spanOk cOf Data.xsAcc5 gl gh (98304 * 2 ^ 100) tlo thi m j = true) (β : ℝ)
    (h1 : ((63 : ℝ) + m) * 2 ^ j / 6400 ≤ β) (h2 : β ≤ ((64 : ℝ) + m) * 2 ^ j / 6400) :
    (tlo : ℝ) ≤ 2 * 10 ^ 52 * 2 ^ 96 * 10 ^ 12 * (F β * G β) ∧
      2 * 10 ^ 52 * 2 ^ 96 * 10 ^ 12 * (F β * G β) ≤ 1.0000201 * thi := by
  simp only [spanOk, Bool.and_eq_true, decide_eq_true_eq] at h
  obtain ⟨⟨⟨c1, c2⟩, c3⟩, c4⟩ := h
  obtain ⟨k, rfl⟩ : ∃ k, m = k + 1 := ⟨m - 1, by omega⟩
  rw [Nat.add_sub_cancel] at c2 c4
  have hI : ∀ i : ℕ, i < 66 → ((63 : ℝ) + i) * 2 ^ j / 6400 ∈ Icc (63 / 6400 : ℝ) (512 / 100) := by
    intro i hi
    have e1 : (63 + i) * 2 ^ j ≤ 128 * 2 ^ 8 :=
      Nat.mul_le_mul (by omega) (Nat.pow_le_pow_right (by norm_num) (by omega))
    have e2 : 63 * 1 ≤ (63 + i) * 2 ^ j := Nat.mul_le_mul (by omega) Nat.one_le_two_pow
    have e1' : ((63 : ℝ) + i) * 2 ^ j ≤ 32768 := by
      have := (Nat.cast_le (α := ℝ)).2 e1
      push_cast at this; norm_num at this ⊢; exact this
    have e2' : (63 : ℝ) ≤ (63 + i) * 2 ^ j := by
      have := (Nat.cast_le (α := ℝ)).2 e2
      push_cast at this; norm_num at this ⊢; exact this
    constructor
    · gcongr
    · rw [div_le_iff₀ (by norm_num)]; norm_num; linarith
  have fa := d.F_hi k j (by omega) hj
  have fb := d.F_lo (k + 1) j (by omega) hj
  have fb' := d.F_hi (k + 1) j (by omega) hj
  have fc := d.F_hi (k + 2) j (by omega) hj
  have ga := d.G_lo k j (by omega) hj
  have gb := d.G_lo (k + 1) j (by omega) hj
  have gb' := d.G_hi (k + 1) j (by omega) hj
  have gc := d.G_lo (k + 2) j (by omega) hj
  have ia := hI k (by omega)
  have ib := hI (k + 1) (by omega)
  have ic := hI (k + 2) (by omega)
  have pFa := d.F_pos _ ia; have pFb := d.F_pos _ ib; have pFc := d.F_pos _ ic
  have pGa := d.G_pos _ ia; have pGb := d.G_pos _ ib; have pGc := d.G_pos _ ic
  have c1' := (Nat.cast_le (α := ℝ)).2 c1
  have c2' := (Nat.cast_le (α := ℝ)).2 c2
  have c3' := (Nat.cast_le (α := ℝ)).2 c3
  have c4' := (Nat.cast_le (α := ℝ)).2 c4
  simp only [Nat.cast_mul, Nat.cast_add, Nat.cast_pow, Nat.cast_ofNat] at c1' c2' c3' c4'
  have ht' : (0 : ℝ) < tlo := by exact_mod_cast ht
  set xa : ℝ := ((63 : ℝ) + (k : ℕ)) * 2 ^ j / 6400 with hxa
  set xb : ℝ := ((63 : ℝ) + ((k + 1 : ℕ) : ℝ)) * 2 ^ j / 6400 with hxb
  set xc : ℝ := ((63 : ℝ) + ((k + 2 : ℕ) : ℝ)) * 2 ^ j / 6400 with hxc
  have hΘ : (0 : ℝ) < 2 * 10 ^ 52 * 2 ^ 96 := by positivity
  have n1 : (0 : ℝ) ≤ cOf (get2 Data.xsAcc5 k j) := Nat.cast_nonneg _
  have n2 : (0 : ℝ) ≤ cOf (get2 Data.xsAcc5 (k + 1) j) := Nat.cast_nonneg _
  have n3 : (0 : ℝ) ≤ cOf (get2 Data.xsAcc5 (k + 2) j) := Nat.cast_nonneg _
  have n4 : (0 : ℝ) ≤ get2 gl k j := Nat.cast_nonneg _
  have n5 : (0 : ℝ) ≤ get2 gl (k + 1) j := Nat.cast_nonneg _
  have n6 : (0 : ℝ) ≤ get2 gl (k + 2) j := Nat.cast_nonneg _
  have n7 : (0 : ℝ) ≤ get2 gh (k + 1) j := Nat.cast_nonneg _
  have n8 : (0 : ℝ) ≤ thi := Nat.cast_nonneg _
  have nE : (0 : ℝ) ≤ 98304 * 2 ^ 100 := by positivity
  have hstep : xb - xa = 2 ^ j / 6400 := by rw [hxa, hxb]; push_cast; ring
  have hstep2 : xc - xb = 2 ^ j / 6400 := by rw [hxc, hxb]; push_cast; ring
  have hβ2 : β ≤ xc := by
    refine h2.trans (le_of_eq ?_)
    rw [hxc]; push_cast; ring
  have key := product_between (I := Icc (63 / 6400 : ℝ) (512 / 100)) (F := F) (G := G) d.F_pos d.G_pos
    d.F_convex d.G_concave (a := xa) (b := xb) (c := xc) (x := β) (h := 2 ^ j / 6400)
    (lo := (tlo : ℝ) / (2 * 10 ^ 52 * 2 ^ 96 * 10 ^ 12))
    (hi := 1.0000201 * thi / (2 * 10 ^ 52 * 2 ^ 96 * 10 ^ 12)) ia ic (by positivity) hstep hstep2 h1 hβ2
    (by positivity)
  generalize F xa = Fa at *
  generalize F xb = Fb at *
  generalize F xc = Fc at *
  generalize G xa = Ga at *
  generalize G xb = Gb at *
  generalize G xc = Gc at *
  generalize (cOf (get2 Data.xsAcc5 k j) : ℝ) = A0 at *
  generalize (cOf (get2 Data.xsAcc5 (k + 1) j) : ℝ) = A1 at *
  have e2 : get2 Data.xsAcc5 (k + 1 + 1) j = get2 Data.xsAcc5 (k + 2) j := rfl
  have e3 : get2 gl (k + 1 + 1) j = get2 gl (k + 2) j := rfl
  rw [e2] at c2'
  rw [e3] at c4'
  generalize (cOf (get2 Data.xsAcc5 (k + 2) j) : ℝ) = A2 at *
  generalize (get2 gl k j : ℝ) = g0 at *
  generalize (get2 gl (k + 1) j : ℝ) = g1 at *
  generalize (get2 gl (k + 2) j : ℝ) = g2 at *
  generalize (get2 gh (k + 1) j : ℝ) = k1 at *
  generalize (98304 : ℝ) * 2 ^ 100 = E at *
  generalize (2 : ℝ) * 10 ^ 52 * 2 ^ 96 = Θ at *
  have t12 : (0 : ℝ) < 10 ^ 12 := by positivity
  generalize (10 : ℝ) ^ 12 = t at *
  have hΘt : 0 < Θ * t := mul_pos hΘ t12
  have q : (1.0000201 : ℝ) = 10000201 / 10000000 := by norm_num
  have res := key ?_ ?_ ?_ ?_
  · obtain ⟨r1, r2⟩ := res
    rw [div_le_iff₀ hΘt] at r1
    rw [le_div_iff₀ hΘt] at r2
    constructor <;> linarith
  · rw [le_div_iff₀ hΘt]
    have := mul_le_mul fb' gb' (by positivity) (by positivity)
    calc Fb * Gb * (Θ * t) = Θ * Fb * (t * Gb) := by ring
      _ ≤ 1.0000201 * (A1 + E) * k1 := this
      _ = 1.0000201 * ((A1 + E) * k1) := by ring
      _ ≤ _ := mul_le_mul_of_nonneg_left c1' (by norm_num)
  · rw [div_mul_eq_mul_div, le_div_iff₀ hΘt]
    have hsq : (t * Gb) ^ 2 ≤ k1 ^ 2 := pow_le_pow_left₀ (by positivity) gb' 2
    have := mul_le_mul fc hsq (by positivity) (by positivity)
    have h5 : t * (Fc * Gb ^ 2 * (Θ * t)) ≤ t * (1.0000201 * thi * Ga) := by
      calc t * (Fc * Gb ^ 2 * (Θ * t)) = Θ * Fc * (t * Gb) ^ 2 := by ring
        _ ≤ 1.0000201 * (A2 + E) * k1 ^ 2 := this
        _ = 1.0000201 * ((A2 + E) * k1 ^ 2) := by ring
        _ ≤ 1.0000201 * (thi * g0) := mul_le_mul_of_nonneg_left c2' (by norm_num)
        _ ≤ 1.0000201 * (thi * (t * Ga)) :=
          mul_le_mul_of_nonneg_left (mul_le_mul_of_nonneg_left ga n8) (by norm_num)
        _ = _ := by ring
    exact le_of_mul_le_mul_left h5 t12
  · rw [div_le_iff₀ hΘt]
    have := mul_le_mul fb gb n5 (by positivity)
    calc (tlo : ℝ) ≤ A1 * g1 := c3'
      _ ≤ Θ * Fb * (t * Gb) := this
      _ = _ := by ring
  · rw [div_mul_eq_mul_div, div_le_iff₀ hΘt]
    have hsq : A1 ^ 2 ≤ (Θ * Fb) ^ 2 := pow_le_pow_left₀ n2 fb 2
    have h3 := mul_le_mul hsq gc n6 (by positivity)
    have h4 : (tlo : ℝ) * (1.0000201 * (A0 + E)) ≤ A1 ^ 2 * g2 := by
      rw [q]
      have : (10000000 : ℝ) * (tlo * (10000201 / 10000000 * (A0 + E))) ≤ 10000000 * (A1 ^ 2 * g2) := by
        linarith
      exact le_of_mul_le_mul_left this (by norm_num)
    have h5 := mul_le_mul_of_nonneg_left fa ht'.le
    have h6 : Θ * (tlo * Fa) ≤ Θ * (Fb ^ 2 * Gc * (Θ * t)) := by
      calc Θ * (tlo * Fa) = tlo * (Θ * Fa) := by ring
        _ ≤ _ := h5
        _ ≤ _ := h4
        _ ≤ _ := h3
        _ = _ := by ring
    exact le_of_mul_le_mul_left h6 hΘ

/-- Every number from 64 to 32768 lies between two nodes. -/
theorem locate (x : ℝ) (h1 : 64 ≤ x) (h2 : x < 32768) :
    ∃ m j : ℕ, 1 ≤ m ∧ m < 65 ∧ j < 9 ∧ ((63 : ℝ) + m) * 2 ^ j ≤ x ∧ x ≤ ((64 : ℝ) + m) * 2 ^ j := by
  have hj : ∃ j : ℕ, j < 9 ∧ (64 : ℝ) * 2 ^ j ≤ x ∧ x < 128 * 2 ^ j := by
    rcases lt_or_ge x 128 with h | h
    · exact ⟨0, by norm_num, by linarith, by linarith⟩
    rcases lt_or_ge x 256 with h | h
    · exact ⟨1, by norm_num, by linarith, by linarith⟩
    rcases lt_or_ge x 512 with h | h
    · exact ⟨2, by norm_num, by linarith, by linarith⟩
    rcases lt_or_ge x 1024 with h | h
    · exact ⟨3, by norm_num, by linarith, by linarith⟩
    rcases lt_or_ge x 2048 with h | h
    · exact ⟨4, by norm_num, by linarith, by linarith⟩
    rcases lt_or_ge x 4096 with h | h
    · exact ⟨5, by norm_num, by linarith, by linarith⟩
    rcases lt_or_ge x 8192 with h | h
    · exact ⟨6, by norm_num, by linarith, by linarith⟩
    rcases lt_or_ge x 16384 with h | h
    · exact ⟨7, by norm_num, by linarith, by linarith⟩
    · exact ⟨8, by norm_num, by linarith, by linarith⟩
  obtain ⟨j, j9, a, b⟩ := hj
  have hp : (0 : ℝ) < 2 ^ j := by positivity
  have a' : 64 ≤ x / 2 ^ j := by rwa [le_div_iff₀ hp]
  have b' : x / 2 ^ j < 128 := by rwa [div_lt_iff₀ hp]
  have f1 : 64 ≤ ⌊x / 2 ^ j⌋₊ := Nat.le_floor (by exact_mod_cast a')
  have f2 : ⌊x / 2 ^ j⌋₊ < 128 := (Nat.floor_lt (by linarith)).2 (by exact_mod_cast b')
  have f3 := Nat.floor_le (show 0 ≤ x / 2 ^ j by linarith)
  have f4 := (Nat.lt_floor_add_one (x / 2 ^ j)).le
  obtain ⟨m, hm⟩ : ∃ m, ⌊x / 2 ^ j⌋₊ = 63 + m := ⟨⌊x / 2 ^ j⌋₊ - 63, by omega⟩
  rw [hm] at f1 f2 f3 f4
  refine ⟨m, j, by omega, by omega, j9, ?_, ?_⟩
  · rw [← le_div_iff₀ hp]; push_cast at f3; exact f3
  · rw [← div_le_iff₀ hp]; push_cast at f4; linarith

theorem spans_sound {cOf : ℕ → ℕ} {gl gh : List (List ℕ)} {F G : ℝ → ℝ}
    (d : NodeData cOf gl gh F G) (tlo thi X : ℕ) (ht : 0 < tlo)
    (h : spansOk cOf Data.xsAcc5 gl gh (98304 * 2 ^ 100) tlo thi X = true) (β : ℝ)
    (h1 : 1 / 100 ≤ β) (h2 : β < 512 / 100) (h3 : 6400 * β ≤ X) :
    (tlo : ℝ) ≤ 2 * 10 ^ 52 * 2 ^ 96 * 10 ^ 12 * (F β * G β) ∧
      2 * 10 ^ 52 * 2 ^ 96 * 10 ^ 12 * (F β * G β) ≤ 1.0000201 * thi := by
  obtain ⟨m, j, m1, m2, j9, l1, l2⟩ := locate (6400 * β) (by linarith) (by linarith)
  obtain ⟨k, rfl⟩ : ∃ k, m = k + 1 := ⟨m - 1, by omega⟩
  have hs : (decide (X < (63 + (k + 1)) * 2 ^ j) ||
      spanOk cOf Data.xsAcc5 gl gh (98304 * 2 ^ 100) tlo thi (k + 1) j) = true := by
    unfold spansOk at h
    have := List.all_eq_true.1 h j (List.mem_range.2 j9)
    exact List.all_eq_true.1 this k (List.mem_range.2 (by omega))
  rw [Bool.or_eq_true, decide_eq_true_eq] at hs
  rcases hs with hs | hs
  · have : (X : ℝ) < (63 + (k + 1)) * 2 ^ j := by exact_mod_cast hs
    push_cast at l1
    linarith
  · refine span_sound d tlo thi ht (k + 1) j m1 m2 j9 hs β ?_ ?_
    · rw [div_le_iff₀ (by norm_num)]; linarith
    · rw [le_div_iff₀ (by norm_num)]; linarith

/-! ## The kernel checks -/

theorem spansDT : spansOk cDT Data.xsAcc5 Data.glDT Data.ghDT (98304 * 2 ^ 100)
    (1139967 * 10 ^ 66) (1152443 * 10 ^ 66) 32000 = true := by decide +kernel
theorem spansDDn : spansOk cDDn Data.xsAcc5 Data.glDDn Data.ghDDn (98304 * 2 ^ 100)
    (4323199 * 10 ^ 63) (4560601 * 10 ^ 63) 21334 = true := by decide +kernel
theorem spansDDn' : spansOk cDDn Data.xsAcc5 Data.glDDn Data.ghDDn (98304 * 2 ^ 100)
    (4323199 * 10 ^ 63) (4942387 * 10 ^ 63) 32000 = true := by decide +kernel
theorem spansDDp : spansOk cDDp Data.xsAcc5 Data.glDDp Data.ghDDp (98304 * 2 ^ 100)
    (4530109 * 10 ^ 63) (4701437 * 10 ^ 63) 10667 = true := by decide +kernel
theorem spansDDp' : spansOk cDDp Data.xsAcc5 Data.glDDp Data.ghDDp (98304 * 2 ^ 100)
    (4530109 * 10 ^ 63) (5355561 * 10 ^ 63) 32000 = true := by decide +kernel

end TNS
