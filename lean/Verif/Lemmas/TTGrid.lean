import Verif.Model.RoundedTT
import Verif.Props.Spectra
import Verif.Props.RoundedEnergyGrid
/-
For C107: the search of scipy's interpolator, the grids and one interpolated value.
-/

set_option autoImplicit false

namespace TNS
open Spec
noncomputable section

/-- Grid points below a threshold in an ascending grid are its first ones. -/
theorem filter_count (g : ℕ → ℝ) (x : ℝ) (n : ℕ) (hg : ∀ i j : ℕ, i < j → j < n → g i < g j) :
    ∃ c ≤ n, (((List.range n).map g).filter fun y => @decide (y ≤ x) (Classical.propDecidable _)).length = c ∧
      ∀ i < n, g i ≤ x ↔ i < c := by
  induction n with
  | zero => exact ⟨0, le_rfl, by simp, by omega⟩
  | succ n ih =>
    obtain ⟨c, h1, h2, h3⟩ := ih fun i j a b => hg i j a (by omega)
    rw [List.range_succ, List.map_append, List.filter_append, List.length_append, h2]
    by_cases h : g n ≤ x
    · have hc : c = n := by
        rcases Nat.lt_or_ge c n with hlt | hge
        · exact absurd ((h3 c hlt).1 ((hg c n hlt (by omega)).le.trans h)) (lt_irrefl _)
        · omega
      refine ⟨n + 1, le_rfl, by simp [h, hc], fun i hi => ⟨fun _ => hi, fun _ => ?_⟩⟩
      rcases Nat.lt_succ_iff_lt_or_eq.1 hi with a | a
      · exact (hg i n a (by omega)).le.trans h
      · rw [a]; exact h
    · refine ⟨c, by omega, by simp [h], fun i hi => ?_⟩
      rcases Nat.lt_succ_iff_lt_or_eq.1 hi with a | a
      · exact h3 i a
      · subst a; exact ⟨fun k => absurd k h, fun k => by omega⟩

/-- The interval that is found contains the point. -/
theorem findInterval_spec (g : ℕ → ℝ) (x : ℝ) (n : ℕ) (hn : 2 ≤ n) (hg : ∀ i j : ℕ, i < j → j < n → g i < g j)
    (h0 : g 0 ≤ x) (h1 : x ≤ g (n - 1)) :
    findInterval ((List.range n).map g) x + 1 < n ∧ g (findInterval ((List.range n).map g) x) ≤ x ∧
      x ≤ g (findInterval ((List.range n).map g) x + 1) := by
  obtain ⟨c, k1, k2, k3⟩ := filter_count g x n hg
  have e : findInterval ((List.range n).map g) x = min (n - 2) (c - 1) := by
    unfold findInterval
    rw [List.length_map, List.length_range, k2]
  have hc := (k3 0 (by omega)).1 h0
  rw [e]
  refine ⟨by omega, (k3 _ (by omega)).2 (by omega), ?_⟩
  by_cases h : c < n
  · have e2 : min (n - 2) (c - 1) + 1 = c := by omega
    rw [e2]
    by_contra hn'
    push Not at hn'
    exact absurd ((k3 c h).1 hn'.le) (lt_irrefl _)
  · have e2 : min (n - 2) (c - 1) + 1 = n - 1 := by omega
    rw [e2]; exact h1

/-- At a grid point the interval to its right is found, at the last one that to its left. -/
theorem findInterval_node (g : ℕ → ℝ) (n : ℕ) (hg : ∀ i j : ℕ, i < j → j < n → g i < g j) (k : ℕ) (hk : k < n) :
    findInterval ((List.range n).map g) (g k) = min (n - 2) k := by
  obtain ⟨c, k1, k2, k3⟩ := filter_count g (g k) n hg
  have e : findInterval ((List.range n).map g) (g k) = min (n - 2) (c - 1) := by
    unfold findInterval
    rw [List.length_map, List.length_range, k2]
  have a1 := (k3 k hk).1 le_rfl
  have a2 : c ≤ k + 1 := by
    by_contra hn'
    have := (k3 (k + 1) (by omega)).2 (by omega)
    exact absurd (hg k (k + 1) (by omega) (by omega)) (not_lt.2 this)
  rw [e]
  congr 1
  omega

theorem getD_range_map {α : Type} (f : ℕ → α) (n k : ℕ) (d : α) (hk : k < n) : ((List.range n).map f).getD k d = f k := by
  simp [List.getD, hk]

/-- Row number `i` of the T-T data. -/
def ttRow (i : ℕ) : ℕ × List ℕ := Data.ttSpectra.getD i (0, [])

theorem list_getD_range {α : Type} (l : List α) (d : α) : l = (List.range l.length).map fun i => l.getD i d := by
  refine List.ext_getElem (by simp) fun i h1 h2 => ?_
  rw [List.getElem_map, List.getElem_range]
  simp [List.getD, h1]

theorem tt_range : Data.ttSpectra = (List.range 500).map ttRow := by
  have := list_getD_range Data.ttSpectra (0, [])
  rw [tt_length] at this
  exact this

theorem ttRow_mem (i : ℕ) (hi : i < 500) : ttRow i ∈ Data.ttSpectra := by
  rw [tt_range]
  exact List.mem_map.2 ⟨i, List.mem_range.2 hi, rfl⟩

/-- Neighbouring energies in the file are at least a thousandth of their sum apart. -/
def gapsFrom : ℕ → List (ℕ × List ℕ) → Bool
  | _, [] => true
  | a, p :: l => Nat.ble (a + p.1) (1000 * (p.1 - a)) && gapsFrom p.1 l

theorem gapsFrom_spec (a : ℕ) (l : List (ℕ × List ℕ)) (h : gapsFrom a l = true) :
    ∀ (i : ℕ) (h1 : i + 1 < l.length), (l[i]'(by omega)).1 + l[i + 1].1 ≤ 1000 * (l[i + 1].1 - (l[i]'(by omega)).1) := by
  induction l generalizing a with
  | nil => intro i h1; simp at h1
  | cons p l ih =>
    simp only [gapsFrom, Bool.and_eq_true] at h
    intro i h1
    cases i with
    | zero =>
      cases l with
      | nil => simp at h1
      | cons q l =>
        have h2 := h.2
        simp only [gapsFrom, Bool.and_eq_true, Nat.ble_eq] at h2
        exact h2.1
    | succ i => exact ih _ h.2 i (by simpa using h1)

set_option maxRecDepth 100000 in
theorem tt_gaps : gapsFrom 0 Data.ttSpectra = true := by decide +kernel

theorem ttRow_gap (i : ℕ) (hi : i < 499) :
    (ttRow i).1 < (ttRow (i + 1)).1 ∧
      ((ttRow i).1 : ℝ) + (ttRow (i + 1)).1 ≤ 1000 * ((ttRow (i + 1)).1 - (ttRow i).1) := by
  have hl := tt_length
  have h1 := gapsFrom_spec 0 _ tt_gaps i (by rw [hl]; omega)
  have h2 := List.pairwise_iff_getElem.1 tt_sorted i (i + 1) (by rw [hl]; omega) (by rw [hl]; omega) (by omega)
  have e : ∀ (k : ℕ) (hk : k < Data.ttSpectra.length), Data.ttSpectra[k] = ttRow k := by
    intro k hk
    unfold ttRow
    simp [List.getD, hk]
  rw [e, e] at h1 h2
  refine ⟨h2, ?_⟩
  have : (((ttRow i).1 + (ttRow (i + 1)).1 : ℕ) : ℝ) ≤ ((1000 * ((ttRow (i + 1)).1 - (ttRow i).1) : ℕ) : ℝ) := by
    exact_mod_cast h1
  rw [Nat.cast_mul, Nat.cast_sub h2.le] at this
  push_cast at this
  exact this

section
variable {A : Arith} {u : ℝ} (hA : StandardModel A u)
include hA

theorem rd_zero' : A.rd 0 = 0 := by
  have := hA.rel 0
  simpa using this

theorem corner_zero_left (b v : ℝ) : cornerR A v 0 b = 0 := by
  unfold cornerR
  rw [mul_zero, rd_zero' hA, zero_mul, rd_zero' hA]

/-- One corner: three roundings when the weights are exact. -/
theorem near_corner (h1 : A.rd 1 = 1) {v b b' : ℝ} {k : ℕ} (hv : 0 ≤ v) (hb : 0 ≤ b) (h : Near u k b' b) :
    Near u (k + 2) (cornerR A v 1 b') (v * b) ∧ 0 ≤ cornerR A v 1 b' := by
  have h0 := hA.u_nonneg
  have hu1 := hA.u_lt_one
  have hb' := h.nonneg h0 hu1 hb
  unfold cornerR
  rw [mul_one]
  have a1 := near_rd hA hv
  have a2 : Near u 1 (A.rd v * b') (v * b') := a1.mul_right hb'
  have a3 : Near u k (v * b') (v * b) := by
    have := h.mul_right hv
    rwa [mul_comm b', mul_comm b] at this
  have a4 := a2.trans h0 hu1 a3
  have n0 := mul_nonneg (rd_nonneg hA hv) hb'
  have a5 := (near_rd hA n0).trans h0 hu1 a4
  exact ⟨a5, rd_nonneg hA n0⟩

/-- The bilinear formula at a grid point of the first axis (left end of the interval). -/
theorem bilinear_left (h1 : A.rd 1 = 1) {v00 v01 v10 v11 y : ℝ} (a0 : 0 ≤ v00) (a1 : 0 ≤ v01) (hy : 0 ≤ y)
    (hy1 : y ≤ 1) : Near u 6 (bilinearR A v00 v01 v10 v11 0 y) (v00 * (1 - y) + v01 * y) := by
  have h0 := hA.u_nonneg
  have hu1 := hA.u_lt_one
  unfold bilinearR
  rw [corner_zero_left hA, corner_zero_left hA, sub_zero, h1, add_zero, add_zero]
  have c1 := near_corner hA h1 a0 (by linarith) (near_rd hA (by linarith : 0 ≤ 1 - y))
  have c2 := near_corner hA h1 a1 hy (k := 0) (b' := y) ⟨by simp, by simp⟩
  have n1 : 0 ≤ v00 * (1 - y) := mul_nonneg a0 (by linarith)
  have n2 : 0 ≤ v01 * y := mul_nonneg a1 hy
  have s := (c1.1).add ((c2.1).mono h0 hu1 n2 (by omega : 0 + 2 ≤ 1 + 2))
  have m1 := add_nonneg c1.2 c2.2
  have r1 := (near_rd hA m1).trans h0 hu1 s
  have m2 := rd_nonneg hA m1
  have r2 := (near_rd hA m2).trans h0 hu1 r1
  have r3 := (near_rd hA (rd_nonneg hA m2)).trans h0 hu1 r2
  exact r3

/-- The bilinear formula at the last grid point of the first axis. -/
theorem bilinear_right (h1 : A.rd 1 = 1) {v00 v01 v10 v11 y : ℝ} (a0 : 0 ≤ v10) (a1 : 0 ≤ v11) (hy : 0 ≤ y)
    (hy1 : y ≤ 1) : Near u 6 (bilinearR A v00 v01 v10 v11 1 y) (v10 * (1 - y) + v11 * y) := by
  have h0 := hA.u_nonneg
  have hu1 := hA.u_lt_one
  unfold bilinearR
  have z : A.rd (1 - 1) = 0 := by rw [sub_self, rd_zero' hA]
  rw [z, corner_zero_left hA, corner_zero_left hA, zero_add, rd_zero' hA, zero_add]
  have c1 := near_corner hA h1 a0 (by linarith) (near_rd hA (by linarith : 0 ≤ 1 - y))
  have c2 := near_corner hA h1 a1 hy (k := 0) (b' := y) ⟨by simp, by simp⟩
  have n1 : 0 ≤ v10 * (1 - y) := mul_nonneg a0 (by linarith)
  have n2 : 0 ≤ v11 * y := mul_nonneg a1 hy
  have r1 := (near_rd hA c1.2).trans h0 hu1 c1.1
  have c2' := (c2.1).mono h0 hu1 n2 (by omega : 0 + 2 ≤ 1 + 2 + 1)
  have s := r1.add c2'
  have m1 := add_nonneg (rd_nonneg hA c1.2) c2.2
  have r2 := (near_rd hA m1).trans h0 hu1 s
  exact r2.mono h0 hu1 (by linarith) (by omega)

/-- A normalised distance is a weight. -/
theorem normDist_unit (hm : Monotone A.rd) (h1 : A.rd 1 = 1) {g : List ℝ} {i : ℕ} {x : ℝ}
    (hg : g.getD i 0 < g.getD (i + 1) 0) (a : g.getD i 0 ≤ x) (b : x ≤ g.getD (i + 1) 0) :
    0 ≤ normDistR A g i x ∧ normDistR A g i x ≤ 1 := by
  unfold normDistR
  have h0 := hA.u_nonneg
  have hu1 := hA.u_lt_one
  have d : 0 < A.rd (g.getD (i + 1) 0 - g.getD i 0) := (near_rd hA (by linarith)).pos h0 hu1 (by linarith)
  constructor
  · exact rd_nonneg hA (div_nonneg (rd_nonneg hA (by linarith)) d.le)
  · rw [← h1]
    refine hm ?_
    rw [div_le_one d]
    exact hm (by linarith)

theorem normDist_self {g : List ℝ} {i : ℕ} : normDistR A g i (g.getD i 0) = 0 := by
  unfold normDistR
  rw [sub_self, rd_zero' hA, zero_div, rd_zero' hA]

theorem normDist_next (h1 : A.rd 1 = 1) {g : List ℝ} {i : ℕ} (hg : g.getD i 0 < g.getD (i + 1) 0) :
    normDistR A g i (g.getD (i + 1) 0) = 1 := by
  unfold normDistR
  have d : 0 < A.rd (g.getD (i + 1) 0 - g.getD i 0) :=
    (near_rd hA (by linarith)).pos hA.u_nonneg hA.u_lt_one (by linarith)
  rw [div_self d.ne', h1]

/-- The tabulated temperatures as floats. -/
theorem ttTemperatures_close (h1 : A.rd 1 = 1) (hu : u ≤ 1 / 10 ^ 10) :
    ∃ g : ℕ → ℝ, ttTemperaturesR A = (List.range 40).map g ∧ g 0 = 1 ∧ g 39 = 20 ∧
      (∀ i < 40, |g i - ttTemp i| ≤ 160 * u) ∧ ∀ i j : ℕ, i < j → j < 40 → g i < g j := by
  have h0 := hA.u_nonneg
  have hu1 := hA.u_lt_one
  have s2 : Near u 2 (A.rd (A.rd (20 - 1) / 39)) (19 / 39) := by
    have a := near_rd hA (show (0 : ℝ) ≤ 20 - 1 by norm_num)
    have b := a.mul_right (show (0 : ℝ) ≤ 1 / 39 by norm_num)
    have e : (20 - 1 : ℝ) * (1 / 39) = 19 / 39 := by norm_num
    rw [e, mul_one_div] at b
    exact (near_rd hA (b.nonneg h0 hu1 (by norm_num))).trans h0 hu1 b
  set s := A.rd (A.rd (20 - 1) / 39) with hs
  have s0 : 0 ≤ s := s2.nonneg h0 hu1 (by norm_num)
  set g : ℕ → ℝ := fun i => if i = 39 then 20 else A.rd (A.rd ((i : ℝ) * s) + 1) with hgdef
  have near : ∀ i < 40, Near u 4 (g i) (ttTemp i) := by
    intro i hi
    have i0 : (0 : ℝ) ≤ i := Nat.cast_nonneg i
    simp only [hgdef]
    by_cases h : i = 39
    · rw [if_pos h, h]
      have e : ttTemp 39 = 20 := by unfold ttTemp; norm_num
      rw [e]
      exact (show Near u 0 (20 : ℝ) 20 from ⟨by simp, by simp⟩).mono h0 hu1 (by norm_num) (by omega)
    · rw [if_neg h]
      have a1 : Near u 2 ((i : ℝ) * s) (i * (19 / 39)) := by
        have := s2.mul_right i0
        rwa [mul_comm s, mul_comm (19 / 39 : ℝ)] at this
      have m1 := mul_nonneg i0 s0
      have a2 := (near_rd hA m1).trans h0 hu1 a1
      have a3 := a2.add ((show Near u 0 (1 : ℝ) 1 from ⟨by simp, by simp⟩).mono h0 hu1 (by norm_num) (by omega : 0 ≤ 2 + 1))
      have m2 : 0 ≤ A.rd ((i : ℝ) * s) + 1 := by have := rd_nonneg hA m1; linarith
      have a4 := (near_rd hA m2).trans h0 hu1 a3
      unfold ttTemp
      rw [add_comm (1 : ℝ)]
      exact a4
  have err : ∀ i < 40, |g i - ttTemp i| ≤ 160 * u := by
    intro i hi
    have t0 : 0 ≤ ttTemp i := by unfold ttTemp; positivity
    have t1 : ttTemp i ≤ 20 := by
      have : (i : ℝ) ≤ 39 := by exact_mod_cast (by omega : i ≤ 39)
      unfold ttTemp; linarith
    have := (near i hi).bound h0 hu1 t0 (by push_cast; linarith)
    push_cast at this
    have k := mul_le_mul_of_nonneg_left t1 (by positivity : 0 ≤ 2 * 4 * u)
    linarith
  refine ⟨g, rfl, ?_, ?_, err, ?_⟩
  · simp only [hgdef]
    rw [if_neg (by norm_num)]
    push_cast
    rw [zero_mul, rd_zero' hA, zero_add, h1]
  · simp only [hgdef]
    rw [if_pos trivial]
  · intro i j hij hj
    obtain ⟨_, e1⟩ := abs_le.1 (err i (by omega))
    obtain ⟨e2, _⟩ := abs_le.1 (err j hj)
    have : (i : ℝ) + 1 ≤ j := by exact_mod_cast hij
    have : ttTemp i + 19 / 39 ≤ ttTemp j := by unfold ttTemp; linarith
    linarith

end

/-- Straight lines keep relative errors. -/
theorem LC.mix {ε a a' b b' y : ℝ} (h : LC ε a a') (h' : LC ε b b') (hy : 0 ≤ y) (hy1 : y ≤ 1) :
    LC ε (a * (1 - y) + b * y) (a' * (1 - y) + b' * y) := by
  rcases hy.eq_or_lt with e | l
  · rw [← e]; simpa using h
  · rcases hy1.eq_or_lt with e | l'
    · rw [e]; simpa using h'
    · have m1 := h.mul (LC.refl (show 0 < 1 - y by linarith))
      have m2 := h'.mul (LC.refl l)
      rw [add_zero] at m1 m2
      exact m1.add m2

end
end TNS
